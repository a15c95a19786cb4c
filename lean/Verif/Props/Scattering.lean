import Verif.Props.Peaks

/-! Properties C16-C18: polarization, Lorentz and Scherrer columns. -/

namespace XRD
open V3 M3 Fl Spec
open scoped Classical

/-! ### C16 -/

/-- C16: for a unit polarization vector and a nonzero outgoing wave vector the factor is in `[0,1]`, one exactly for
orthogonal and zero exactly for parallel vectors. -/
theorem C16_polarization_range (k p : V3) (hp : norm p = 1) (hk : k ≠ 0) :
    ∃ P : ℝ, polarization k p = fin P ∧ 0 ≤ P ∧ P ≤ 1 ∧ (P = 1 ↔ dot k p = 0) ∧ (P = 0 ↔ cross k p = 0) := by
  have hn : 0 < k.norm := V3.norm_pos.mpr hk
  have hp' := norm_eq_one.mp hp
  have hn2 : k.norm ^ 2 = k.nsq := V3.norm_sq k
  have hval : polarization k p = fin (1 - (dot k p / k.norm) ^ 2) := by
    simp only [polarization, Fl.div_fin_ne hn.ne', Fl.mul_fin, Fl.add_fin, Fl.sub_fin]
    congr 1; simp only [V3.dot]; field_simp
  have hP : 1 - (dot k p / k.norm) ^ 2 = (cross k p).nsq / k.nsq := by
    rw [lagrange, hp', div_pow, hn2]
    have : 0 < k.nsq := by rw [← hn2]; positivity
    field_simp
  have hkn : 0 < k.nsq := by rw [← hn2]; positivity
  refine ⟨_, hval, ?_, ?_, ?_, ?_⟩
  · rw [hP]; exact div_nonneg (nsq_nonneg _) (nsq_nonneg _)
  · nlinarith [sq_nonneg (dot k p / k.norm)]
  · constructor
    · intro h
      have h2 : (dot k p / k.norm) ^ 2 = 0 := by linarith
      have := pow_eq_zero_iff (two_ne_zero) |>.mp h2
      rcases div_eq_zero_iff.mp this with h | h
      · exact h
      · exact absurd h hn.ne'
    · intro h; rw [h]; simp
  · rw [hP, div_eq_zero_iff, nsq_eq_zero]
    constructor
    · rintro (h | h); exact h; exact absurd h hkn.ne'
    · exact Or.inl

example : ∃ P : ℝ, polarization ⟨3, 4, 0⟩ ⟨1, 0, 0⟩ = fin P ∧ 0 ≤ P ∧ P ≤ 1 := by
  obtain ⟨P, h1, h2, h3, -⟩ := C16_polarization_range ⟨3, 4, 0⟩ ⟨1, 0, 0⟩
    (by rw [norm_eq_one]; simp [nsq, V3.dot]) (by intro h; have := congrArg V3.x h; simp at this)
  exact ⟨P, h1, h2, h3⟩

/-- C16 on the peaks table: for a constructed beam every reported polarization factor is in `[0,1]`. -/
theorem C16_peaks_polarization_range (q : Qhull) (vs : List V3) (dir pol : V3) (wl : ℝ) (b : Beam)
    (hb : Beam.new q vs dir wl pol = .ok b) (hwl : 0 < wl)
    (c : Crystal) (a T o : V3) (w : ℝ) (m : Motion) (d : PeaksDict)
    (hm : Motion.new a w T o = .ok m) (ha : norm a = 1) (hc : ∀ ph ∈ c.phases, ph.Consistent)
    (hd : diffractCore c b m = .ok d) (row : List Fl) (hrow : row ∈ d.peaks) :
    ∃ (P : ℝ) (K : V3), Has d.columns row "polarization_factors" (fin P) ∧
      HasV d.columns row "K_out_x" "K_out_y" "K_out_z" K ∧ 0 ≤ P ∧ P ≤ 1 ∧
      P = 1 - (dot K ((1 / norm pol) • pol) / norm K) ^ 2 := by
  obtain ⟨e, i, ph, n, hkl, wt, t, idx, h1, h2, h3, rfl⟩ := mem_diffract hc hd hrow
  obtain ⟨rfl, hw0, hw1, -⟩ := Motion.new_ok hm
  have hel := (found_sound hw0 h2).1
  have h1' : nsq a = 1 := norm_eq_one.mp ha
  set R := Motion.rotate1 ⟨a, w, T, o⟩ (c.G0 e hkl) t with hR
  have hRn : nsq R = nsq (c.G0 e hkl) := IsRot.nsq_mulVec (rotMat_isRot h1' _).1 _
  have hkpos : 0 < b.waveVector.norm := by rw [Beam.norm_wave hb hwl]; have := Real.pi_pos; positivity
  have hKn : (R + b.waveVector).norm = b.waveVector.norm := by
    rw [norm_eq_iff]
    have : (R + b.waveVector).nsq = R.nsq + 2 * b.waveVector.dot R + b.waveVector.nsq := by
      simp only [nsq, V3.dot, V3.add_x, V3.add_y, V3.add_z]; ring
    rw [this, hRn]; linarith
  have hK0 : R + b.waveVector ≠ 0 := V3.norm_pos.mp (by rw [hKn]; exact hkpos)
  obtain ⟨P, hP, hP0, hP1, -⟩ := C16_polarization_range (R + b.waveVector) b.polarization (Beam.norm_pol hb) hK0
  have hpol := (Beam.new_ok hb).2.2.2.2.2.1
  rw [diffract_columns hd]
  refine ⟨P, R + b.waveVector, ⟨20, rfl, ?_⟩, ⟨⟨13, rfl, rfl⟩, ⟨14, rfl, rfl⟩, ⟨15, rfl, rfl⟩⟩, hP0, hP1, ?_⟩
  · show some (polarization (R + b.waveVector) b.polarization) = _
    rw [hP]
  · rw [← hpol]
    have hval : polarization (R + b.waveVector) b.polarization
        = fin (1 - (dot (R + b.waveVector) b.polarization / (R + b.waveVector).norm) ^ 2) := by
      have hn : (R + b.waveVector).norm ≠ 0 := by rw [hKn]; exact hkpos.ne'
      simp only [polarization, Fl.div_fin_ne hn, Fl.mul_fin, Fl.add_fin, Fl.sub_fin]
      congr 1; simp only [V3.dot]; field_simp
    rw [hP] at hval
    exact Fl.fin.inj hval

/-! ### C17 -/

theorem perp_nsq {k v : V3} (hk : k ≠ 0) : (perp k v).nsq = v.nsq - (dot k v) ^ 2 / k.nsq := by
  have hn : k.nsq ≠ 0 := fun h => hk (nsq_eq_zero.mp h)
  unfold perp
  rw [V3.norm_sq]
  have : (v - (dot k v / k.nsq) • k).nsq = v.nsq - 2 * (dot k v / k.nsq) * dot k v + (dot k v / k.nsq) ^ 2 * k.nsq := by
    simp only [nsq, V3.dot, V3.sub_x, V3.sub_y, V3.sub_z, V3.smul_x, V3.smul_y, V3.smul_z]; ring
  rw [this]; field_simp; ring

/-- For elastic scattering the orthogonal component has length `|k| sin 2θ`. -/
theorem perp_norm_elastic {k v : V3} (hk : k ≠ 0) (h : norm v = norm k) :
    (perp k v).norm = norm k * Real.sin (angle k v) := by
  have hn : 0 < k.norm := V3.norm_pos.mpr hk
  have hn2 : k.norm ^ 2 = k.nsq := V3.norm_sq k
  unfold angle
  rw [Real.sin_arccos, h]
  have hv : v.nsq = k.nsq := norm_eq_iff.mp h
  have hkn : 0 < k.nsq := by rw [← hn2]; positivity
  have : (perp k v).norm = Real.sqrt (k.nsq * (1 - (dot k v / (k.norm * k.norm)) ^ 2)) := by
    unfold V3.norm; congr 1
    rw [perp_nsq hk, hv]
    have : Real.sqrt k.nsq * Real.sqrt k.nsq = k.nsq := Real.mul_self_sqrt hkn.le
    rw [this]; field_simp
  rw [this, Real.sqrt_mul hkn.le]; rfl

theorem angle_mem (u v : V3) : 0 ≤ angle u v ∧ angle u v ≤ Real.pi := ⟨Real.arccos_nonneg _, Real.arccos_le_pi _⟩

theorem cos_bounds (u v : V3) : -1 ≤ dot u v / (norm u * norm v) ∧ dot u v / (norm u * norm v) ≤ 1 := by
  have h := abs_le.mp (abs_dot_le u v)
  have hn : 0 ≤ norm u * norm v := mul_nonneg (norm_nonneg _) (norm_nonneg _)
  rcases hn.eq_or_lt with h0 | h0
  · rw [← h0]; simp
  · exact ⟨by rw [le_div_iff₀ h0]; linarith [h.1], by rw [div_le_one h0]; exact h.2⟩

/-- C17: the Lorentz factor of an elastic reflection `k → k'` for a unit rotation axis `a`.  With `2θ` the scattering angle
and `η` the angle between the axis and the component of `k'` orthogonal to `k`: NaN for exact back-scattering; `+inf` when
`θ < 0.5°` or `η` is within `0.5°` of `0` or `180°`; otherwise `1 / (sin 2θ |sin η|) ≥ 1`, which for an axis orthogonal to
the beam is the textbook `|k|² / |k·(a × k')|`. -/
theorem C17_lorentz (k k' a : V3) (ha : norm a = 1) (hk : k ≠ 0) (hel : norm k' = norm k) :
    (k' = -k → lorentz k k' a = nan) ∧
    (k' ≠ -k → (angle k k' / 2 < deg (1/2) ∨ angle a (perp k k') < deg (1/2) ∨ deg (180 - 1/2) < angle a (perp k k')) →
      lorentz k k' a = pinf) ∧
    (k' ≠ -k → ¬ (angle k k' / 2 < deg (1/2) ∨ angle a (perp k k') < deg (1/2) ∨ deg (180 - 1/2) < angle a (perp k k')) →
      ∃ L : ℝ, lorentz k k' a = fin L ∧ 1 ≤ L ∧
        L = 1 / (Real.sin (angle k k') * |Real.sin (angle a (perp k k'))|) ∧
        (dot a k = 0 → L = norm k ^ 2 / |dot k (cross a k')|)) := by
  have hn : 0 < k.norm := V3.norm_pos.mpr hk
  have hn2 : k.norm ^ 2 = k.nsq := V3.norm_sq k
  have hkn : 0 < k.nsq := by rw [← hn2]; positivity
  have hpi := Real.pi_pos
  have hv : k'.nsq = k.nsq := norm_eq_iff.mp hel
  obtain ⟨hc1, hc2⟩ := cos_bounds k k'
  have hcc : dot k k' / (norm k * norm k') = dot k k' / k.norm ^ 2 := by rw [hel]; ring
  rw [hcc] at hc1 hc2
  have hang : angle k k' = Real.arccos (dot k k' / k.norm ^ 2) := by unfold angle; rw [hcc]
  -- the common prefix of the computation
  have hkkp : fin (dot k k') / fin (k.norm ^ 2) = fin (dot k k' / k.norm ^ 2) := Fl.div_fin_ne (by positivity)
  set p := perp k k' with hp
  have hox : k'.x - k.x * (dot k k' / k.norm ^ 2) = p.x := by simp [hp, perp]; ring
  have hoy : k'.y - k.y * (dot k k' / k.norm ^ 2) = p.y := by simp [hp, perp]; ring
  have hoz : k'.z - k.z * (dot k k' / k.norm ^ 2) = p.z := by simp [hp, perp]; ring
  have hsq : Fl.sqrt (fin (p.x * p.x + p.y * p.y + p.z * p.z)) = fin p.norm := by
    rw [Fl.sqrt_fin (by nlinarith [sq_nonneg p.x, sq_nonneg p.y, sq_nonneg p.z])]; rfl
  have hL : lorentz k k' a =
      (let eta : Fl := Fl.arccos (fin (dot a p) / fin p.norm)
       if Fl.Lt (Fl.abs (rad2deg eta)) (fin (1/2)) ∨ Fl.Lt (fin (180 - 1/2)) (Fl.abs (rad2deg eta))
          ∨ Fl.Lt (rad2deg (fin (angle k k' / 2))) (fin (1/2))
        then pinf
        else fin 1 / (Fl.sin (fin 2 * fin (angle k k' / 2)) * Fl.abs (Fl.sin eta))) := by
    unfold lorentz
    simp only [hkkp, Fl.arccos_fin hc1 hc2, Fl.mul_fin, Fl.sub_fin, Fl.add_fin, hox, hoy, hoz, hsq, ← hang,
      Fl.div_fin_ne (two_ne_zero)]
    rfl
  have hpn : p.norm = k.norm * Real.sin (angle k k') := perp_norm_elastic hk hel
  obtain ⟨hA0, hA1⟩ := angle_mem k k'
  have hcosA : Real.cos (angle k k') = dot k k' / k.norm ^ 2 := by rw [hang, Real.cos_arccos hc1 hc2]
  have hthr : ∀ x : ℝ, x * (180 / Real.pi) < 1/2 ↔ x < deg (1/2) := by
    intro x; unfold deg; rw [mul_div_assoc', div_lt_iff₀ hpi, lt_div_iff₀ (by norm_num)]; 
  have hthr2 : ∀ x : ℝ, 180 - 1/2 < x * (180 / Real.pi) ↔ deg (180 - 1/2) < x := by
    intro x; unfold deg; rw [mul_div_assoc', lt_div_iff₀ hpi, div_lt_iff₀ (by norm_num)]
  -- cases on the scattering angle
  have hback : angle k k' = Real.pi ↔ k' = -k := by
    constructor
    · intro h
      rw [h, Real.cos_pi] at hcosA
      have hd : dot k k' = -k.nsq := by rw [hn2] at hcosA; field_simp at hcosA; linarith
      have : (k' + k).nsq = 0 := by
        have : (k' + k).nsq = k'.nsq + 2 * dot k k' + k.nsq := by
          simp only [nsq, V3.dot, V3.add_x, V3.add_y, V3.add_z]; ring
        rw [this, hd, hv]; ring
      exact eq_neg_of_add_eq_zero_left (nsq_eq_zero.mp this)
    · rintro rfl
      have : dot k (-k) = -k.nsq := by simp only [nsq, V3.dot, V3.neg_x, V3.neg_y, V3.neg_z]; ring
      rw [hang, this, hn2, neg_div, div_self hkn.ne', Real.arccos_neg_one]
  have habs : ∀ x : ℝ, 0 ≤ x → |x * (180 / Real.pi)| = x * (180 / Real.pi) := by
    intro x hx; rw [abs_of_nonneg]; positivity
  refine ⟨?_, ?_, ?_⟩
  · intro hb
    have hA := hback.mpr hb
    have hp0 : p.norm = 0 := by rw [hpn, hA, Real.sin_pi, mul_zero]
    have hpz : p = 0 := V3.norm_eq_zero.mp hp0
    have hd0 : dot a p = 0 := by rw [hpz]; simp [V3.dot]
    rw [hL]
    have e1 : Fl.arccos (fin (dot a p) / fin p.norm) = nan := by
      rw [hp0, hd0, Fl.div_fin, if_pos rfl]; simp [infSign, Fl.arccos]
    simp only [e1, rad2deg, hA]
    have : ¬ (Real.pi / 2 * (180 / Real.pi) < 1/2) := by
      have : Real.pi / 2 * (180 / Real.pi) = 90 := by field_simp; norm_num
      rw [this]; norm_num
    simp [Fl.abs, Fl.sin]
    norm_num
  all_goals
    intro hb hcond
    have hAlt : angle k k' < Real.pi := lt_of_le_of_ne hA1 (fun h => hb (hback.mp h))
    rw [hL]
  · by_cases hA : angle k k' / 2 < deg (1/2)
    · simp only
      rw [if_pos]
      right; right
      simp only [rad2deg, Fl.lt_fin]
      exact (hthr _).mpr hA
    · have hApos : 0 < angle k k' := by
        unfold deg at hA; have : (0:ℝ) < 1/2 * Real.pi / 180 := by positivity
        linarith
      have hppos : 0 < p.norm := by rw [hpn]; exact mul_pos hn (Real.sin_pos_of_pos_of_lt_pi hApos hAlt)
      obtain ⟨hb1, hb2⟩ := cos_bounds a p
      have e1 : Fl.arccos (fin (dot a p) / fin p.norm) = fin (angle a p) := by
        rw [Fl.div_fin_ne hppos.ne']
        rw [ha, one_mul] at hb1 hb2
        rw [Fl.arccos_fin hb1 hb2]; unfold angle; rw [ha, one_mul]
      obtain ⟨hE0, hE1⟩ := angle_mem a p
      simp only [e1, rad2deg, Fl.abs_fin, Fl.lt_fin, habs _ hE0]
      rw [if_pos]
      rcases hcond with h | h | h
      · exact absurd h hA
      · exact Or.inl ((hthr _).mpr h)
      · exact Or.inr (Or.inl ((hthr2 _).mpr h))
  · push Not at hcond
    obtain ⟨hq1, hq2, hq3⟩ := hcond
    have hdpos : (0:ℝ) < deg (1/2) := by unfold deg; positivity
    have hApos : 0 < angle k k' := by linarith
    have hsA := Real.sin_pos_of_pos_of_lt_pi hApos hAlt
    have hppos : 0 < p.norm := by rw [hpn]; exact mul_pos hn hsA
    obtain ⟨hb1, hb2⟩ := cos_bounds a p
    have e1 : Fl.arccos (fin (dot a p) / fin p.norm) = fin (angle a p) := by
      rw [Fl.div_fin_ne hppos.ne']
      rw [ha, one_mul] at hb1 hb2
      rw [Fl.arccos_fin hb1 hb2]; unfold angle; rw [ha, one_mul]
    obtain ⟨hE0, hE1⟩ := angle_mem a p
    have hEpos : 0 < angle a p := by linarith
    have hElt : angle a p < Real.pi := by
      refine lt_of_le_of_lt hq3 ?_
      unfold deg; rw [div_lt_iff₀ (by norm_num)]; nlinarith
    have hsE := Real.sin_pos_of_pos_of_lt_pi hEpos hElt
    have hmul : (2:ℝ) * (angle k k' / 2) = angle k k' := by ring
    refine ⟨1 / (Real.sin (angle k k') * |Real.sin (angle a p)|), ?_, ?_, rfl, ?_⟩
    · simp only [e1, rad2deg, Fl.abs_fin, Fl.lt_fin, habs _ hE0, Fl.mul_fin, Fl.sin_fin, hmul]
      rw [if_neg, Fl.div_fin_ne]
      · rw [abs_of_pos hsE]; positivity
      · rintro (h | h | h)
        · exact absurd ((hthr _).mp h) (not_lt.mpr hq2)
        · exact absurd ((hthr2 _).mp h) (not_lt.mpr hq3)
        · exact absurd ((hthr _).mp h) (not_lt.mpr hq1)
    · rw [abs_of_pos hsE, le_div_iff₀ (by positivity)]
      have h1 := Real.sin_le_one (angle k k')
      have h2 := Real.sin_le_one (angle a p)
      nlinarith
    · intro hperp
      -- |a × p| = |p| sin η, and a × p is parallel to k
      have ha2 := norm_eq_one.mp ha
      have hcosE : Real.cos (angle a p) = dot a p / p.norm := by
        have := Real.cos_arccos hb1 hb2
        unfold angle; rw [this, ha, one_mul]
      have hdk : dot k p = 0 := by
        rw [hp]; unfold perp; rw [hn2]
        have : dot k (k' - (dot k k' / k.nsq) • k) = dot k k' - dot k k' / k.nsq * k.nsq := by
          simp only [nsq, V3.dot, V3.sub_x, V3.sub_y, V3.sub_z, V3.smul_x, V3.smul_y, V3.smul_z]; ring
        rw [this]; field_simp; ring
      have htrip : dot k (cross a k') = dot k (cross a p) := by
        rw [hp]; unfold perp
        simp only [V3.dot, V3.cross, V3.sub_x, V3.sub_y, V3.sub_z, V3.smul_x, V3.smul_y, V3.smul_z]; ring
      have hsqE : (k.norm * (p.norm * Real.sin (angle a p))) ^ 2 = (dot k (cross a p)) ^ 2 := by
        have h1 := lagrange k (cross a p)
        have h0 : cross k (cross a p) = 0 := by
          have e : cross k (cross a p) = (dot k p) • a - (dot k a) • p := by
            ext <;> simp only [V3.dot, V3.cross, V3.sub_x, V3.sub_y, V3.sub_z, V3.smul_x, V3.smul_y, V3.smul_z] <;> ring
          rw [e, hdk, V3.dot_comm k a, hperp]; ext <;> simp
        rw [h0] at h1
        have h00 : (0 : V3).nsq = 0 := nsq_eq_zero.mpr rfl
        rw [h00] at h1
        have h2 := lagrange a p
        rw [ha2, one_mul] at h2
        have h3 := Real.sin_sq_add_cos_sq (angle a p)
        have h4 : p.nsq = p.norm ^ 2 := (V3.norm_sq p).symm
        have h5 : dot a p = p.norm * Real.cos (angle a p) := by rw [hcosE]; field_simp
        have h6 : (cross a p).nsq = (p.norm * Real.sin (angle a p)) ^ 2 := by
          rw [h2, h4, h5]
          have : Real.sin (angle a p) ^ 2 = 1 - Real.cos (angle a p) ^ 2 := by linarith
          rw [mul_pow, mul_pow, this]; ring
        rw [mul_pow, ← h6, hn2]; linarith
      have habsE : |dot k (cross a k')| = k.norm * (p.norm * Real.sin (angle a p)) := by
        rw [htrip, ← abs_of_nonneg (by positivity : 0 ≤ k.norm * (p.norm * Real.sin (angle a p)))]
        exact (sq_eq_sq_iff_abs_eq_abs _ _).mp hsqE.symm
      rw [habsE, hpn, abs_of_pos hsE]
      field_simp

/-- each of the three cases of C17 is met -/
example : lorentz ⟨1, 0, 0⟩ ⟨-1, 0, 0⟩ ⟨0, 0, 1⟩ = nan :=
  (C17_lorentz ⟨1, 0, 0⟩ ⟨-1, 0, 0⟩ ⟨0, 0, 1⟩ norm_ez (by intro h; have := congrArg V3.x h; simp at this)
    (by rw [norm_eq_iff]; norm_num [nsq, V3.dot])).1 (by ext <;> simp)
example : lorentz ⟨1, 0, 0⟩ ⟨0, 0, 1⟩ ⟨0, 0, 1⟩ = pinf := by
  refine (C17_lorentz ⟨1, 0, 0⟩ ⟨0, 0, 1⟩ ⟨0, 0, 1⟩ norm_ez (by intro h; have := congrArg V3.x h; simp at this)
    (by rw [norm_eq_iff]; norm_num [nsq, V3.dot])).2.1 (by intro h; have := congrArg V3.x h; simp at this) (Or.inr (Or.inl ?_))
  have hp : perp ⟨1, 0, 0⟩ ⟨0, 0, 1⟩ = ⟨0, 0, 1⟩ := by ext <;> simp [perp, V3.dot]
  have h0 : angle ⟨0, 0, 1⟩ ⟨0, 0, 1⟩ = 0 := by unfold angle; rw [norm_ez]; simp [V3.dot]
  rw [hp, h0]; unfold deg; have := Real.pi_pos; positivity
example : lorentz ⟨1, 0, 0⟩ ⟨0, 1, 0⟩ ⟨0, 0, 1⟩ = fin 1 := by
  have hx : norm (⟨1, 0, 0⟩ : V3) = 1 := by rw [norm_eq_one]; simp [nsq, V3.dot]
  have hy : norm (⟨0, 1, 0⟩ : V3) = 1 := by rw [norm_eq_one]; simp [nsq, V3.dot]
  have hp : perp ⟨1, 0, 0⟩ ⟨0, 1, 0⟩ = ⟨0, 1, 0⟩ := by ext <;> simp [perp, V3.dot]
  have h1 : angle ⟨1, 0, 0⟩ ⟨0, 1, 0⟩ = Real.pi / 2 := by unfold angle; simp [V3.dot]
  have h2 : angle ⟨0, 0, 1⟩ ⟨0, 1, 0⟩ = Real.pi / 2 := by unfold angle; simp [V3.dot]
  have hpi := Real.pi_pos
  obtain ⟨L, hL, -, hf, -⟩ := (C17_lorentz ⟨1, 0, 0⟩ ⟨0, 1, 0⟩ ⟨0, 0, 1⟩ norm_ez
    (by intro h; have := congrArg V3.x h; simp at this) (by rw [hx, hy])).2.2
    (by intro h; have := congrArg V3.x h; simp at this)
    (by rw [hp, h1, h2]; unfold deg; push Not; refine ⟨?_, ?_, ?_⟩ <;> linarith)
  rw [hp, h1, h2, Real.sin_pi_div_two] at hf
  rw [hL, hf]; norm_num

/-- C17 on the peaks table: the reported Lorentz factor is NaN, `+inf`, or at least one. -/
theorem C17_peaks_lorentz (q : Qhull) (vs : List V3) (dir pol : V3) (wl : ℝ) (b : Beam)
    (hb : Beam.new q vs dir wl pol = .ok b) (hwl : 0 < wl)
    (c : Crystal) (a T o : V3) (w : ℝ) (m : Motion) (d : PeaksDict)
    (hm : Motion.new a w T o = .ok m) (ha : norm a = 1) (hc : ∀ ph ∈ c.phases, ph.Consistent)
    (hd : diffractCore c b m = .ok d) (row : List Fl) (hrow : row ∈ d.peaks) :
    ∃ (L : Fl) (K : V3), Has d.columns row "lorentz_factors" L ∧ HasV d.columns row "K_out_x" "K_out_y" "K_out_z" K ∧
      ((L = nan ∧ K = -b.waveVector) ∨ L = pinf ∨
        ∃ r : ℝ, L = fin r ∧ 1 ≤ r ∧
          r = 1 / (Real.sin (angle b.waveVector K) * |Real.sin (angle a (perp b.waveVector K))|)) := by
  obtain ⟨e, i, ph, n, hkl, wt, t, idx, h1, h2, h3, rfl⟩ := mem_diffract hc hd hrow
  obtain ⟨rfl, hw0, hw1, -⟩ := Motion.new_ok hm
  have hel := (found_sound hw0 h2).1
  have h1' : nsq a = 1 := norm_eq_one.mp ha
  set R := Motion.rotate1 ⟨a, w, T, o⟩ (c.G0 e hkl) t with hR
  have hRn : nsq R = nsq (c.G0 e hkl) := IsRot.nsq_mulVec (rotMat_isRot h1' _).1 _
  have hkpos : 0 < b.waveVector.norm := by rw [Beam.norm_wave hb hwl]; have := Real.pi_pos; positivity
  have hKn : (R + b.waveVector).norm = b.waveVector.norm := by
    rw [norm_eq_iff]
    have : (R + b.waveVector).nsq = R.nsq + 2 * b.waveVector.dot R + b.waveVector.nsq := by
      simp only [nsq, V3.dot, V3.add_x, V3.add_y, V3.add_z]; ring
    rw [this, hRn]; linarith
  have hk0 := V3.norm_pos.mp hkpos
  obtain ⟨g1, g2, g3⟩ := C17_lorentz b.waveVector (R + b.waveVector) a ha hk0 hKn
  rw [diffract_columns hd]
  refine ⟨lorentz b.waveVector (R + b.waveVector) a, R + b.waveVector, ⟨19, rfl, rfl⟩,
    ⟨⟨13, rfl, rfl⟩, ⟨14, rfl, rfl⟩, ⟨15, rfl, rfl⟩⟩, ?_⟩
  by_cases hbk : R + b.waveVector = -b.waveVector
  · exact Or.inl ⟨g1 hbk, hbk⟩
  · by_cases hcond : (angle b.waveVector (R + b.waveVector) / 2 < deg (1/2) ∨
        angle a (perp b.waveVector (R + b.waveVector)) < deg (1/2) ∨
        deg (180 - 1/2) < angle a (perp b.waveVector (R + b.waveVector)))
    · exact Or.inr (Or.inl (g2 hbk hcond))
    · obtain ⟨L, hL, hL1, hL2, -⟩ := g3 hbk hcond
      exact Or.inr (Or.inr ⟨L, hL, hL1, hL2⟩)

/-! ### C18 -/

theorem scherrer_val {V tt wl : ℝ} (hV : 0 < V) (h0 : 0 ≤ tt) (h1 : tt < Real.pi) :
    0 < Real.cos (tt / 2) ∧ scherrer V tt wl =
      fin (9 / 10 * wl / (2 * (3 * V / (4 * Real.pi)) ^ ((1 : ℝ) / 3) * 10000 * Real.cos (tt / 2))) := by
  have hpi := Real.pi_pos
  have hc : 0 < Real.cos (tt / 2) := Real.cos_pos_of_mem_Ioo ⟨by linarith, by linarith⟩
  refine ⟨hc, ?_⟩
  unfold scherrer
  have : 0 < (3 * V / (4 * Real.pi)) ^ ((1 : ℝ) / 3) := Real.rpow_pos_of_pos (by positivity) _
  rw [Fl.div_fin_ne (by positivity)]

/-- C18: positive volume and wavelength, `0 ≤ 2θ < π`: the broadening is finite and positive, equals
`0.9 λ / (D cos θ)` with `D` the diameter (in Ångström, volume in μm³) of the ball of that volume, strictly decreases with
the volume, halves when the volume is multiplied by eight, and strictly increases with `2θ`. -/
theorem C18_scherrer (V tt wl : ℝ) (hV : 0 < V) (hw : 0 < wl) (h0 : 0 ≤ tt) (h1 : tt < Real.pi) :
    ∃ s : ℝ, scherrer V tt wl = fin s ∧ 0 < s ∧
      (∀ D : ℝ, 0 < D → 4 / 3 * Real.pi * (D / 10000 / 2) ^ 3 = V → s = 9 / 10 * wl / (D * Real.cos (tt / 2))) ∧
      (∀ V' s', V < V' → scherrer V' tt wl = fin s' → s' < s) ∧
      (∀ s', scherrer (8 * V) tt wl = fin s' → s' = s / 2) ∧
      (∀ tt' s', tt < tt' → tt' < Real.pi → scherrer V tt' wl = fin s' → s < s') := by
  have hpi := Real.pi_pos
  obtain ⟨hc, hval⟩ := scherrer_val (wl := wl) hV h0 h1
  have hr : 0 < (3 * V / (4 * Real.pi)) ^ ((1 : ℝ) / 3) := Real.rpow_pos_of_pos (by positivity) _
  refine ⟨_, hval, by positivity, ?_, ?_, ?_, ?_⟩
  · intro D hD hVD
    have e : (3 * V / (4 * Real.pi)) ^ ((1 : ℝ) / 3) = D / 10000 / 2 := by
      have : 3 * V / (4 * Real.pi) = (D / 10000 / 2) ^ (3 : ℝ) := by
        rw [← hVD, show ((3:ℝ)) = ((3:ℕ) : ℝ) by norm_num, Real.rpow_natCast]; field_simp
      rw [this, ← Real.rpow_mul (by positivity)]; norm_num
    rw [e]; congr 1; ring
  · intro V' s' hlt hs'
    obtain ⟨-, hval'⟩ := scherrer_val (wl := wl) (hV.trans hlt) h0 h1
    rw [hval'] at hs'
    obtain rfl := Fl.fin.inj hs'
    have hr' : (3 * V / (4 * Real.pi)) ^ ((1 : ℝ) / 3) < (3 * V' / (4 * Real.pi)) ^ ((1 : ℝ) / 3) := by
      apply Real.rpow_lt_rpow (by positivity) _ (by norm_num)
      gcongr
    apply div_lt_div_of_pos_left (by positivity) (by positivity)
    gcongr
  · intro s' hs'
    obtain ⟨-, hval'⟩ := scherrer_val (V := 8 * V) (wl := wl) (by positivity) h0 h1
    rw [hval'] at hs'
    obtain rfl := Fl.fin.inj hs'
    have e : (3 * (8 * V) / (4 * Real.pi)) ^ ((1 : ℝ) / 3) = 2 * (3 * V / (4 * Real.pi)) ^ ((1 : ℝ) / 3) := by
      rw [show 3 * (8 * V) / (4 * Real.pi) = (2 : ℝ) ^ (3 : ℝ) * (3 * V / (4 * Real.pi)) by
        rw [show ((3:ℝ)) = ((3:ℕ) : ℝ) by norm_num, Real.rpow_natCast]; push_cast; ring]
      rw [Real.mul_rpow (by positivity) (by positivity), ← Real.rpow_mul (by norm_num)]
      norm_num
    rw [e]; field_simp
  · intro tt' s' hlt hlt' hs'
    obtain ⟨hc', hval'⟩ := scherrer_val (wl := wl) hV (h0.trans hlt.le) hlt'
    rw [hval'] at hs'
    obtain rfl := Fl.fin.inj hs'
    apply div_lt_div_of_pos_left (by positivity) (by positivity)
    have : Real.cos (tt' / 2) < Real.cos (tt / 2) := by
      apply Real.cos_lt_cos_of_nonneg_of_le_pi <;> linarith
    gcongr

example : ∃ s : ℝ, scherrer 1 (1/2) 1 = fin s ∧ 0 < s := by
  obtain ⟨s, h1, h2, -⟩ := C18_scherrer 1 (1/2) 1 one_pos one_pos (by norm_num) (by linarith [Real.pi_gt_three])
  exact ⟨s, h1, h2⟩

end XRD
