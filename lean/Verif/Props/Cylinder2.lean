import Verif.Props.Cylinder
import Mathlib.Analysis.Convex.SpecificFunctions.Deriv

/-! Properties C50 and C103: size of the cylinder handed to the mesher and number of crystals obtained. -/

namespace XRD.Spec
open XRD V3
/-- total volume of the tetrahedra spanned by the origin and the triangles of a surface -/
noncomputable def coneVolume (pts : List V3) (facets : List (List ℕ)) : ℝ :=
  (facets.map fun f => |dot (cross (pts.getD (f.getD 0 0) 0) (pts.getD (f.getD 1 0) 0)) (pts.getD (f.getD 2 0) 0)| / 6).sum
/-- volumes of the elements of a mesh -/
noncomputable def elementVolumes (coord : List V3) (enod : List (Q4 ℕ)) : List ℝ :=
  enod.map fun e => |dot (cross (coord.getD e.b 0 - coord.getD e.a 0) (coord.getD e.c 0 - coord.getD e.a 0)) (coord.getD e.d 0 - coord.getD e.a 0)| / 6
/-- The mesher fills the solid it is given (a cylinder's surface, whose cones from the centre fill the solid) with elements that are not
larger than asked. -/
def Fills (mesher : Mesher) : Prop :=
  ∀ (n : ℕ) (R dz vol : ℝ), 8 ≤ n → 0 < R → 0 < dz → 0 < vol →
    let out := mesher (cylinderPoints R dz n) (cylinderFacets n) vol
    (elementVolumes out.1 out.2).sum = coneVolume (cylinderPoints R dz n) (cylinderFacets n) ∧ ∀ v ∈ elementVolumes out.1 out.2, v ≤ vol
end XRD.Spec

namespace XRD
open V3 M3 Spec

theorem cyl_bottom (R dz : ℝ) {n i : ℕ} (hi : i < n) : (cylinderPoints R dz n).getD i 0 =
    ⟨R * Real.cos (i * (2 * Real.pi / n)), R * Real.sin (i * (2 * Real.pi / n)), -dz⟩ := by
  unfold cylinderPoints
  rw [List.getD_eq_getElem?_getD, List.append_assoc, List.getElem?_append_left (by simpa using hi)]
  simp [hi]

theorem cyl_top (R dz : ℝ) {n i : ℕ} (hi : i < n) : (cylinderPoints R dz n).getD (n + i) 0 =
    ⟨R * Real.cos (i * (2 * Real.pi / n)), R * Real.sin (i * (2 * Real.pi / n)), dz⟩ := by
  unfold cylinderPoints
  rw [List.getD_eq_getElem?_getD, List.append_assoc, List.getElem?_append_right (by simp)]
  rw [List.getElem?_append_left (by simpa using hi)]
  simp [hi]

theorem cyl_low (R dz : ℝ) (n : ℕ) : (cylinderPoints R dz n).getD (2 * n) 0 = ⟨0, 0, -dz⟩ := by
  unfold cylinderPoints
  rw [List.getD_eq_getElem?_getD, List.getElem?_append_right (by simp; omega)]
  have : 2 * n - (n + n) = 0 := by omega
  simp [this]

theorem cyl_high (R dz : ℝ) (n : ℕ) : (cylinderPoints R dz n).getD (2 * n + 1) 0 = ⟨0, 0, dz⟩ := by
  unfold cylinderPoints
  rw [List.getD_eq_getElem?_getD, List.getElem?_append_right (by simp; omega)]
  have : 2 * n + 1 - (n + n) = 1 := by omega
  simp [this]

theorem next_angle {n i : ℕ} (hi : i < n) :
    Real.cos ((((i + 1) % n : ℕ) : ℝ) * (2 * Real.pi / n)) = Real.cos (i * (2 * Real.pi / n) + 2 * Real.pi / n) ∧
    Real.sin ((((i + 1) % n : ℕ) : ℝ) * (2 * Real.pi / n)) = Real.sin (i * (2 * Real.pi / n) + 2 * Real.pi / n) := by
  have hn : (n : ℝ) ≠ 0 := by have : n ≠ 0 := by omega
                              exact_mod_cast this
  rw [next_eq hi]
  split_ifs with h
  · have e : (i : ℝ) * (2 * Real.pi / n) + 2 * Real.pi / n = 2 * Real.pi := by
      have : (n : ℝ) = i + 1 := by rw [← h]; push_cast; ring
      have h2 : (i : ℝ) + 1 ≠ 0 := this ▸ hn
      rw [this]; field_simp
    rw [e]; simp
  · have e : (((i + 1 : ℕ) : ℝ)) * (2 * Real.pi / n) = (i : ℝ) * (2 * Real.pi / n) + 2 * Real.pi / n := by push_cast; ring
    rw [e]; exact ⟨rfl, rfl⟩

theorem next_cross {n i : ℕ} (hi : i < n) (R : ℝ) :
    R * Real.cos (i * (2 * Real.pi / n)) * (R * Real.sin ((((i + 1) % n : ℕ) : ℝ) * (2 * Real.pi / n))) -
    R * Real.sin (i * (2 * Real.pi / n)) * (R * Real.cos ((((i + 1) % n : ℕ) : ℝ) * (2 * Real.pi / n))) = R ^ 2 * Real.sin (2 * Real.pi / n) := by
  obtain ⟨h1, h2⟩ := next_angle hi
  rw [h1, h2, Real.cos_add, Real.sin_add]
  have := Real.sin_sq_add_cos_sq ((i : ℝ) * (2 * Real.pi / n))
  linear_combination (R ^ 2 * Real.sin (2 * Real.pi / n)) * this

theorem step_sin_pos {n : ℕ} (hn : 3 ≤ n) : 0 < Real.sin (2 * Real.pi / n) := by
  have h3 : (3 : ℝ) ≤ n := by exact_mod_cast hn
  apply Real.sin_pos_of_pos_of_lt_pi
  · have := Real.pi_pos; positivity
  · rw [div_lt_iff₀ (by linarith)]
    nlinarith [Real.pi_pos]

/-- C50: the surface encloses the prism of the given height over the regular polygon inscribed in the given circle: seen from the centre,
its triangles span exactly the volume of that prism. -/
theorem C50_volume (n : ℕ) (hn : 3 ≤ n) (R dz : ℝ) (hdz : 0 ≤ dz) :
    coneVolume (cylinderPoints R dz n) (cylinderFacets n) = (n * (1 / 2 * R * R * Real.sin (2 * Real.pi / n))) * (2 * dz) := by
  have hs := step_sin_pos hn
  set w := R ^ 2 * Real.sin (2 * Real.pi / n) with hw
  have hw0 : 0 ≤ dz * w := mul_nonneg hdz (mul_nonneg (sq_nonneg _) hs.le)
  have hmod : ∀ i, i < n → (i + 1) % n < n := fun i hi => Nat.mod_lt _ (by omega)
  have A : ∀ i ∈ List.range n, |dot (cross ((cylinderPoints R dz n).getD (2 * n) 0) ((cylinderPoints R dz n).getD i 0))
      ((cylinderPoints R dz n).getD ((i + 1) % n) 0)| / 6 = dz * w / 6 := by
    intro i hi
    have hi := List.mem_range.mp hi
    rw [cyl_low, cyl_bottom R dz hi, cyl_bottom R dz (hmod i hi)]
    have := next_cross hi R
    congr 1
    rw [← abs_of_nonneg hw0, ← abs_neg (dz * w)]
    congr 1
    simp only [V3.dot, cross]
    linear_combination (-dz) * this
  have B : ∀ i ∈ List.range n, |dot (cross ((cylinderPoints R dz n).getD (2 * n + 1) 0) ((cylinderPoints R dz n).getD (n + (i + 1) % n) 0))
      ((cylinderPoints R dz n).getD (n + i) 0)| / 6 = dz * w / 6 := by
    intro i hi
    have hi := List.mem_range.mp hi
    rw [cyl_high, cyl_top R dz hi, cyl_top R dz (hmod i hi)]
    have := next_cross hi R
    congr 1
    rw [← abs_of_nonneg hw0, ← abs_neg (dz * w)]
    congr 1
    simp only [V3.dot, cross]
    linear_combination (-dz) * this
  have C : ∀ i ∈ List.range n, |dot (cross ((cylinderPoints R dz n).getD i 0) ((cylinderPoints R dz n).getD ((i + 1) % n) 0))
      ((cylinderPoints R dz n).getD (n + i) 0)| / 6 = dz * w / 3 := by
    intro i hi
    have hi := List.mem_range.mp hi
    rw [cyl_bottom R dz hi, cyl_bottom R dz (hmod i hi), cyl_top R dz hi]
    have := next_cross hi R
    have e : dz * w / 3 = |2 * (dz * w)| / 6 := by rw [abs_of_nonneg (by linarith)]; ring
    rw [e]
    congr 2
    simp only [V3.dot, cross]
    linear_combination (2 * dz) * this
  have D : ∀ i ∈ List.range n, |dot (cross ((cylinderPoints R dz n).getD ((i + 1) % n) 0) ((cylinderPoints R dz n).getD (n + (i + 1) % n) 0))
      ((cylinderPoints R dz n).getD (n + i) 0)| / 6 = dz * w / 3 := by
    intro i hi
    have hi := List.mem_range.mp hi
    rw [cyl_bottom R dz (hmod i hi), cyl_top R dz (hmod i hi), cyl_top R dz hi]
    have := next_cross hi R
    have e : dz * w / 3 = |2 * (dz * w)| / 6 := by rw [abs_of_nonneg (by linarith)]; ring
    rw [e]
    congr 2
    simp only [V3.dot, cross]
    linear_combination (2 * dz) * this
  have hconst : ∀ (f : ℕ → ℝ) (c : ℝ), (∀ i ∈ List.range n, f i = c) → ((List.range n).map f).sum = n * c := by
    intro f c h
    rw [List.map_congr_left h]
    simp
  have hpair : ∀ l : List ℕ, ∀ F : List ℕ → ℝ, ∀ u v : ℕ → List ℕ, ((l.flatMap fun i => [u i, v i]).map F).sum = (l.map fun i => F (u i) + F (v i)).sum := by
    intro l F u v
    induction l with
    | nil => rfl
    | cons a l ih => simp only [List.flatMap_cons, List.map_append, List.sum_append, List.map_cons, List.map_nil, List.sum_cons, List.sum_nil, ih]; ring
  unfold coneVolume cylinderFacets
  rw [List.map_append, List.map_append, List.sum_append, List.sum_append, List.map_map, List.map_map, hpair]
  refine (congrArg₂ (· + ·) (congrArg₂ (· + ·) (hconst _ _ A) (hconst _ _ B))
    (hconst _ (dz * w / 3 + dz * w / 3) fun i hi => congrArg₂ (· + ·) (C i hi) (D i hi))).trans ?_
  show (n * (dz * w / 6) + n * (dz * w / 6)) + n * (dz * w / 3 + dz * w / 3) = _
  rw [hw]; ring

theorem polygon_area {n : ℕ} (hn : 8 ≤ n) : 4 * Real.sqrt 2 ≤ n * Real.sin (2 * Real.pi / n) := by
  have h8 : (8 : ℝ) ≤ n := by exact_mod_cast hn
  have hn0 : (0 : ℝ) < n := by linarith
  have hc := strictConcaveOn_sin_Icc.concaveOn.2
  have h := @hc 0 ⟨le_refl _, Real.pi_pos.le⟩ (Real.pi / 4)
    ⟨by have := Real.pi_pos; positivity, by linarith [Real.pi_pos]⟩ (1 - 8 / (n : ℝ)) (8 / (n : ℝ))
    (by rw [sub_nonneg, div_le_one hn0]; exact h8) (by positivity) (by ring)
  simp only [smul_eq_mul, mul_zero, Real.sin_zero, zero_add, Real.sin_pi_div_four] at h
  have e : 8 / (n : ℝ) * (Real.pi / 4) = 2 * Real.pi / n := by field_simp; norm_num
  rw [e] at h
  have h2 := mul_le_mul_of_nonneg_left h hn0.le
  have e2 : (n : ℝ) * (8 / n * (Real.sqrt 2 / 2)) = 4 * Real.sqrt 2 := by field_simp; norm_num
  rw [e2] at h2
  exact h2

/-- the largest element volume the code asks for, in terms of the sample: just below three times the volume per crystal -/
theorem cell_volume (count height radius : ℝ) (hc : 0 < count) (hh : 0 < height) :
    maxCircumradius count height radius ^ 3 / 6 = (42 / 10) ^ 3 / (8 * Real.pi) * (Real.pi * radius ^ 2 * height / count) := by
  unfold maxCircumradius
  have h0 : (0 : ℝ) ≤ 3 * (Real.pi * radius ^ 2 * height / count) / (Real.pi * 4) := by have := Real.pi_pos; positivity
  rw [mul_pow, ← Real.rpow_natCast, ← Real.rpow_natCast, ← Real.rpow_mul h0]
  norm_num
  have := Real.pi_ne_zero
  field_simp
  ring

/-- C103: if the mesher fills the cylinder with elements not larger than asked, a sample built by `polycrystal_from_odf` has no element larger
than 2.95 times the volume per crystal that was asked for, its elements fill the prism over a regular polygon with at least 8 corners
inscribed in the given circle, and there are at least three tenths of the number of crystals asked for. -/
theorem C103_number_of_crystals (xf : Xfab) (mesher : Mesher) (hM : Fills mesher) (odf : V3 → Quat → ℝ) (count height radius : ℝ)
    (hcount : 0 < count) (hh : 0 < height) (hr : 0 < radius) (cell : List ℝ) (sg : String)
    (cif : Option String) (sep : ℝ) (strain : V3 → M3) (draws : ℕ → Draw) (p : Polycrystal)
    (h : polycrystalFromOdf xf mesher odf count height radius cell sg cif sep strain draws = .ok p) :
    (∀ v ∈ elementVolumes p.meshLab.coord p.meshLab.enod, v ≤ 295 / 100 * (Real.pi * radius ^ 2 * height / count)) ∧
    (∃ n : ℕ, 8 ≤ n ∧ (elementVolumes p.meshLab.coord p.meshLab.enod).sum = n * (1 / 2 * radius * radius * Real.sin (2 * Real.pi / n)) * height) ∧
    3 / 10 * count ≤ p.meshLab.enod.length := by
  have hc8 : 8 ≤ circlePoints radius (maxCircumradius count height radius) := by
    unfold circlePoints
    have : (8 : ℤ) ≤ max 8 (Detector.pyInt (2 * Real.pi * radius / maxCircumradius count height radius)) := le_max_left _ _
    omega
  have hpi := Real.pi_pos
  have hvol := cell_volume count height radius hcount hh
  have hV : 0 < maxCircumradius count height radius ^ 3 / 6 := by rw [hvol]; positivity
  obtain ⟨hsum, hle⟩ := hM (circlePoints radius (maxCircumradius count height radius)) radius (height / 2) _ hc8 hr (by positivity) hV
  set n := circlePoints radius (maxCircumradius count height radius) with hn
  have hmesh : mesher (cylinderPoints radius (height / 2) n) (cylinderFacets n) (maxCircumradius count height radius ^ 3 / 6) =
      (p.meshLab.coord, p.meshLab.enod) := by
    unfold polycrystalFromOdf at h
    split_ifs at h
    simp only at h
    split at h
    · cases h
    rename_i mesh hmesh
    split at h
    · cases h
    obtain ⟨U', S', kind, pm, eB, -, -, -, -, rfl⟩ := Polycrystal.new_ok h
    rw [(TetraMesh.new_ok hmesh).1]
    rfl
  rw [hmesh] at hsum hle
  dsimp only at hsum hle
  have hA := polygon_area hc8
  rw [C50_volume n (by omega) radius (height / 2) (by positivity)] at hsum
  have hsum' : (elementVolumes p.meshLab.coord p.meshLab.enod).sum = n * (1 / 2 * radius * radius * Real.sin (2 * Real.pi / n)) * height := by
    rw [hsum]; ring
  refine ⟨fun v hv => (hle v hv).trans ?_, ⟨n, hc8, hsum'⟩, ?_⟩
  · rw [hvol]
    apply mul_le_mul_of_nonneg_right _ (by positivity)
    rw [div_le_iff₀ (by positivity)]
    have := Real.pi_gt_d4
    norm_num; linarith
  · have hbound : (elementVolumes p.meshLab.coord p.meshLab.enod).sum ≤ p.meshLab.enod.length * (maxCircumradius count height radius ^ 3 / 6) := by
      have := List.sum_le_card_nsmul _ _ hle
      simpa [elementVolumes] using this
    rw [hsum', hvol] at hbound
    have h2 : (1414 / 1000 : ℝ) ≤ Real.sqrt 2 := Real.le_sqrt_of_sq_le (by norm_num)
    have h3 : (n * Real.sin (2 * Real.pi / n)) * (radius ^ 2 * height / 2) ≤
        p.meshLab.enod.length * ((42 / 10) ^ 3 / 4) / count * (radius ^ 2 * height / 2) := by
      calc _ = n * (1 / 2 * radius * radius * Real.sin (2 * Real.pi / n)) * height := by ring
        _ ≤ _ := hbound
        _ = _ := by field_simp; ring
    have h4 := le_of_mul_le_mul_right h3 (by positivity)
    rw [le_div_iff₀ hcount] at h4
    have h5 : 4 * (1414 / 1000) * count ≤ p.meshLab.enod.length * ((42 / 10 : ℝ) ^ 3 / 4) := by
      refine le_trans (mul_le_mul_of_nonneg_right ?_ hcount.le) h4
      linarith
    norm_num at h5
    linarith

/-- C103: what the mesher is asked for.  The largest element has `4.2³ / (8π)` (2.948) times the volume of the cylinder per crystal, and the
circles have as many points as fit with the edge length `c` of a cube of six times that volume, but at least 8. -/
theorem C103_request (xf : Xfab) (mesher : Mesher) (odf : V3 → Quat → ℝ) (count height radius : ℝ)
    (hcount : 0 < count) (hh : 0 < height) (hr : 0 < radius) (cell : List ℝ) (sg : String)
    (cif : Option String) (sep : ℝ) (strain : V3 → M3) (draws : ℕ → Draw) (p : Polycrystal)
    (h : polycrystalFromOdf xf mesher odf count height radius cell sg cif sep strain draws = .ok p) :
    ∃ (n : ℕ) (c : ℝ), 0 < c ∧ c ^ 3 / 6 = (42 / 10) ^ 3 / (8 * Real.pi) * (Real.pi * radius ^ 2 * height / count) ∧
      (8 ≤ n ∧ (n : ℝ) ≤ max 8 (2 * Real.pi * radius / c) ∧ 2 * Real.pi * radius / c < n + 1) ∧
      mesher (cylinderPoints radius (height / 2) n) (cylinderFacets n) (c ^ 3 / 6) = (p.meshLab.coord, p.meshLab.enod) := by
  have hpi := Real.pi_pos
  have hc : 0 < maxCircumradius count height radius := by
    unfold maxCircumradius
    exact mul_pos (by norm_num) (Real.rpow_pos_of_pos (by positivity) _)
  refine ⟨circlePoints radius (maxCircumradius count height radius), maxCircumradius count height radius, hc,
    cell_volume count height radius hcount hh, ?_, ?_⟩
  · have hq : 0 ≤ 2 * Real.pi * radius / maxCircumradius count height radius := by positivity
    set q := 2 * Real.pi * radius / maxCircumradius count height radius
    have hint : Detector.pyInt q = ⌊q⌋ := by unfold Detector.pyInt; rw [if_pos hq]
    have hn : ((circlePoints radius (maxCircumradius count height radius) : ℕ) : ℤ) = max 8 ⌊q⌋ := by
      unfold circlePoints
      rw [Int.toNat_of_nonneg (le_trans (by norm_num) (le_max_left _ _)), hint]
    have h8 : (8 : ℤ) ≤ max 8 ⌊q⌋ := le_max_left _ _
    refine ⟨by omega, ?_, ?_⟩
    · have e : ((circlePoints radius (maxCircumradius count height radius) : ℕ) : ℝ) = ((max 8 ⌊q⌋ : ℤ) : ℝ) := by exact_mod_cast hn
      rw [e, Int.cast_max]
      exact max_le_max (by norm_num) (Int.floor_le q)
    · have e : ((circlePoints radius (maxCircumradius count height radius) : ℕ) : ℝ) = ((max 8 ⌊q⌋ : ℤ) : ℝ) := by exact_mod_cast hn
      rw [e, Int.cast_max]
      exact (Int.lt_floor_add_one q).trans_le (by gcongr; exact le_max_right _ _)
  · unfold polycrystalFromOdf at h
    split_ifs at h
    simp only at h
    split at h
    · cases h
    rename_i mesh hmesh
    split at h
    · cases h
    obtain ⟨U', S', kind, pm, eB, -, -, -, -, rfl⟩ := Polycrystal.new_ok h
    rw [(TetraMesh.new_ok hmesh).1]
    rfl

/-- a mesher that returns equally large elements of the right total volume -/
noncomputable def evenMesher : Mesher := fun pts facets vol =>
  let V := coneVolume pts facets
  let k := ⌈V / vol⌉₊
  ([0, ⟨6 * (V / k), 0, 0⟩, ⟨0, 1, 0⟩, ⟨0, 0, 1⟩], List.replicate k ⟨0, 1, 2, 3⟩)

/-- the hypothesis of C103 can be met -/
example : Fills evenMesher := by
  intro n R dz vol hn hR hdz hvol
  have hV : 0 < coneVolume (cylinderPoints R dz n) (cylinderFacets n) := by
    rw [C50_volume n (by omega) R dz hdz.le]
    have := step_sin_pos (n := n) (by omega)
    have : (0 : ℝ) < n := by exact_mod_cast (by omega : 0 < n)
    positivity
  unfold evenMesher elementVolumes
  dsimp only
  set V := coneVolume (cylinderPoints R dz n) (cylinderFacets n)
  have hk0 : 0 < ⌈V / vol⌉₊ := Nat.ceil_pos.mpr (by positivity)
  have hk : (0 : ℝ) < ⌈V / vol⌉₊ := by exact_mod_cast hk0
  have hel : |dot (cross ((⟨6 * (V / ⌈V / vol⌉₊), 0, 0⟩ : V3) - 0) ((⟨0, 1, 0⟩ : V3) - 0)) ((⟨0, 0, 1⟩ : V3) - 0)| / 6 = V / ⌈V / vol⌉₊ := by
    simp only [V3.dot, cross, V3.sub_x, V3.sub_y, V3.sub_z, V3.zero_x, V3.zero_y, V3.zero_z]
    rw [abs_of_nonneg] <;> ring_nf <;> positivity
  rw [List.map_replicate]
  have hel' : |dot (cross (([0, ⟨6 * (V / ⌈V / vol⌉₊), 0, 0⟩, ⟨0, 1, 0⟩, ⟨0, 0, 1⟩] : List V3).getD 1 0 - ([0, ⟨6 * (V / ⌈V / vol⌉₊), 0, 0⟩, ⟨0, 1, 0⟩, ⟨0, 0, 1⟩] : List V3).getD 0 0)
      (([0, ⟨6 * (V / ⌈V / vol⌉₊), 0, 0⟩, ⟨0, 1, 0⟩, ⟨0, 0, 1⟩] : List V3).getD 2 0 - ([0, ⟨6 * (V / ⌈V / vol⌉₊), 0, 0⟩, ⟨0, 1, 0⟩, ⟨0, 0, 1⟩] : List V3).getD 0 0))
      (([0, ⟨6 * (V / ⌈V / vol⌉₊), 0, 0⟩, ⟨0, 1, 0⟩, ⟨0, 0, 1⟩] : List V3).getD 3 0 - ([0, ⟨6 * (V / ⌈V / vol⌉₊), 0, 0⟩, ⟨0, 1, 0⟩, ⟨0, 0, 1⟩] : List V3).getD 0 0)| / 6
      = V / ⌈V / vol⌉₊ := hel
  rw [hel']
  constructor
  · rw [List.sum_replicate, nsmul_eq_mul]
    field_simp
  · intro v hv
    rw [List.eq_of_mem_replicate hv, div_le_iff₀ hk, ← div_le_iff₀' hvol]
    exact Nat.le_ceil _

end XRD
