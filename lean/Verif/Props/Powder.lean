import Verif.Model.Templates
import Verif.Props.Polycrystal
import Mathlib.Algebra.BigOperators.Group.Finset.Basic

/-! C49: the uniform powder sample.  C50: the cylinder surface. -/

namespace XRD
open V3 M3 Fl
open Classical

/-! ### C49 -/

theorem powderLoop_coord (r : ℝ) (n : ℕ) : (powderLoop r n).1.length = 4 * n ∧
    ∀ i < 4 * n, (powderLoop r n).1[i]? = (powderPoints r)[i % 4]? := by
  induction n with
  | zero => simp [powderLoop]
  | succ n ih =>
    obtain ⟨h1, h2⟩ := ih
    refine ⟨by simp [powderLoop, h1, powderPoints]; ring, ?_⟩
    intro i hi
    simp only [powderLoop]
    rw [List.getElem?_append]
    split_ifs with h
    · rw [h1] at h; exact h2 i h
    · rw [h1] at h ⊢
      congr 1; omega

theorem powderLoop_enod (r : ℝ) (n : ℕ) : (powderLoop r n).2.2 = 3 * n ∧ (powderLoop r n).2.1.length = n ∧
    ∀ g < n, (powderLoop r n).2.1[g]? = some ⟨3 * g, 3 * g + 1, 3 * g + 2, 3 * g + 3⟩ := by
  induction n with
  | zero => simp [powderLoop]
  | succ n ih =>
    obtain ⟨h1, h2, h3⟩ := ih
    refine ⟨by simp [powderLoop, h1]; ring, by simp [powderLoop, h2], ?_⟩
    intro g hg
    simp only [powderLoop]
    rw [List.getElem?_append, h1, h2]
    split_ifs with h
    · exact h3 g h
    · have : g = n := by omega
      subst this; simp

theorem powder_getD (r : ℝ) (n i : ℕ) (hi : i < 4 * n) : (powderLoop r n).1.getD i 0 = (powderPoints r).getD (i % 4) 0 := by
  rw [List.getD_eq_getElem?_getD, List.getD_eq_getElem?_getD, (powderLoop_coord r n).2 i hi]

/-- the vertices of grain `g` -/
theorem powder_element (r : ℝ) (n g : ℕ) (hg : g < n) :
    (elements (powderLoop r n).1 (powderLoop r n).2.1)[g]? = some
      ⟨(powderPoints r).getD (3 * g % 4) 0, (powderPoints r).getD ((3 * g + 1) % 4) 0, (powderPoints r).getD ((3 * g + 2) % 4) 0,
        (powderPoints r).getD ((3 * g + 3) % 4) 0⟩ := by
  unfold elements
  rw [List.getElem?_map, (powderLoop_enod r n).2.2 g hg]
  simp only [Option.map_some, Q4.map]
  rw [powder_getD r n _ (by omega), powder_getD r n _ (by omega), powder_getD r n _ (by omega), powder_getD r n _ (by omega)]

/-- signed volume of the tetrahedron of a grain -/
theorem powder_volume {r : ℝ} (hr : 0 < r) (P : ℕ → V3) (hP : ∀ i, P i = (powderPoints r).getD i 0) (g : ℕ) :
    signedVolume ⟨P (3 * g % 4), P ((3 * g + 1) % 4), P ((3 * g + 2) % 4), P ((3 * g + 3) % 4)⟩ ≠ 0 := by
  have h3 : 0 < Real.sqrt 3 := by positivity
  have h2 : 0 < Real.sqrt 2 := by positivity
  set s := r / Real.sqrt 3 with hs
  set t := r / Real.sqrt 2 with ht
  have hs0 : 0 < s := by positivity
  have ht0 : 0 < t := by positivity
  have p0 : P 0 = ⟨s, s, -s⟩ := by rw [hP]; simp [powderPoints, hs, neg_div]
  have p1 : P 1 = ⟨s, -s, -s⟩ := by rw [hP]; simp [powderPoints, hs, neg_div]
  have p2 : P 2 = ⟨-t, 0, -t⟩ := by rw [hP]; simp [powderPoints, ht, neg_div]
  have p3 : P 3 = ⟨0, 0, r⟩ := by rw [hP]; simp [powderPoints]
  have hd : 0 < s * s * t := by positivity
  have hmain : 0 < s * r * (s + t) := by positivity
  have hcases : g % 4 = 0 ∨ g % 4 = 1 ∨ g % 4 = 2 ∨ g % 4 = 3 := by omega
  rcases hcases with h | h | h | h
  · rw [show 3 * g % 4 = 0 by omega, show (3 * g + 1) % 4 = 1 by omega, show (3 * g + 2) % 4 = 2 by omega, show (3 * g + 3) % 4 = 3 by omega,
      p0, p1, p2, p3]
    simp only [signedVolume, V3.dot, V3.cross, V3.sub_x, V3.sub_y, V3.sub_z]
    intro hh; linarith
  · rw [show 3 * g % 4 = 3 by omega, show (3 * g + 1) % 4 = 0 by omega, show (3 * g + 2) % 4 = 1 by omega, show (3 * g + 3) % 4 = 2 by omega,
      p0, p1, p2, p3]
    simp only [signedVolume, V3.dot, V3.cross, V3.sub_x, V3.sub_y, V3.sub_z]
    intro hh; linarith
  · rw [show 3 * g % 4 = 2 by omega, show (3 * g + 1) % 4 = 3 by omega, show (3 * g + 2) % 4 = 0 by omega, show (3 * g + 3) % 4 = 1 by omega,
      p0, p1, p2, p3]
    simp only [signedVolume, V3.dot, V3.cross, V3.sub_x, V3.sub_y, V3.sub_z]
    intro hh; linarith
  · rw [show 3 * g % 4 = 1 by omega, show (3 * g + 1) % 4 = 2 by omega, show (3 * g + 2) % 4 = 3 by omega, show (3 * g + 3) % 4 = 0 by omega,
      p0, p1, p2, p3]
    simp only [signedVolume, V3.dot, V3.cross, V3.sub_x, V3.sub_y, V3.sub_z]
    intro hh; linarith

/-- the mesh of the powder is accepted -/
theorem powder_mesh {r : ℝ} (hr : 0 < r) (n : ℕ) :
    TetraMesh.new (powderLoop r n).1 (powderLoop r n).2.1 = .ok (TetraMesh.ofData (powderLoop r n).1 (powderLoop r n).2.1) := by
  unfold TetraMesh.new
  rw [if_pos, if_pos]
  · intro t ht
    obtain ⟨g, hg⟩ := List.mem_iff_getElem?.mp ht
    have hgn : g < n := by
      have := (List.getElem?_eq_some_iff.mp hg).1
      simpa [elements, (powderLoop_enod r n).2.1] using this
    rw [powder_element r n g hgn] at hg
    cases hg
    exact powder_volume hr (fun i => (powderPoints r).getD i 0) (fun _ => rfl) g
  · intro e he i hi
    obtain ⟨g, hg⟩ := List.mem_iff_getElem?.mp he
    have hgn : g < n := by
      have := (List.getElem?_eq_some_iff.mp hg).1
      rwa [(powderLoop_enod r n).2.1] at this
    rw [(powderLoop_enod r n).2.2 g hgn] at hg
    cases hg
    rw [(powderLoop_coord r n).1]
    simp only [Q4.toList, List.mem_cons, List.not_mem_nil, or_false] at hi
    omega

theorem powder_norm {r : ℝ} (hr : 0 < r) {v : V3} (hv : v ∈ powderPoints r) : norm v = r := by
  have h3 : Real.sqrt 3 ^ 2 = 3 := Real.sq_sqrt (by norm_num)
  have h2 : Real.sqrt 2 ^ 2 = 2 := Real.sq_sqrt (by norm_num)
  have p3 : 0 < Real.sqrt 3 := by positivity
  have p2 : 0 < Real.sqrt 2 := by positivity
  have key : nsq v = r ^ 2 := by
    simp only [powderPoints, List.mem_cons, List.not_mem_nil, or_false] at hv
    rcases hv with rfl | rfl | rfl | rfl <;> simp only [nsq, V3.dot]
    · field_simp; rw [h3]; ring
    · field_simp; rw [h3]; ring
    · field_simp; rw [h2]; ring
    · ring
  unfold V3.norm
  rw [key, Real.sqrt_sq hr.le]

/-- the corner positions of an element of a polycrystal's mesh: `coord[enod[g]]` -/
def Spec.corners (m : TetraMesh) (g : ℕ) : Option (List V3) :=
  (m.enod[g]?).map fun e => e.toList.map fun i => m.coord.getD i 0

/-- C49: for every positive radius, every number of grains, every orientation sample and every symmetric feasible strain the
powder sample is built.  Every element has four valid node indices; its four corners are, in some order, the same four points
for every grain, all at the distance `r` from the origin; its volume is nonzero, the same for all grains; grain `g` has the
`g`-th random orientation, the strain given, and the phase given. -/
theorem C49_powder (xf : Xfab) (r : ℝ) (hr : 0 < r) (n : ℕ) (cell : List ℝ) (sg : String) (strain : M3) (cif : Option String)
    (rots : ℕ → M3) (hrot : ∀ i, IsRot (rots i)) (hsym : Spec.Symmetric strain) (hfeas : Spec.Feasible strain) :
    ∃ p, uniformPowder xf r n cell sg (.one strain) cif rots = .ok p ∧
      p.meshLab.enod.length = n ∧ p.orientationLab = (List.range n).map rots ∧ p.strainLab = List.replicate n strain ∧
      p.phases = [Phase.new cell sg cif] ∧ p.phaseMap = List.replicate n 0 ∧
      (∀ g < n, ∃ e : Q4 ℕ, p.meshLab.enod[g]? = some e ∧ (∀ i ∈ e.toList, i < p.meshLab.coord.length) ∧ e.toList.Nodup) ∧
      (∀ g < n, ∃ l, Spec.corners p.meshLab g = some l ∧
        l.Perm [⟨r / Real.sqrt 3, r / Real.sqrt 3, -r / Real.sqrt 3⟩, ⟨r / Real.sqrt 3, -r / Real.sqrt 3, -r / Real.sqrt 3⟩,
          ⟨-r / Real.sqrt 2, 0, -r / Real.sqrt 2⟩, ⟨0, 0, r⟩] ∧ ∀ v ∈ l, norm v = r) ∧
      ∃ V > 0, p.meshVolumes = List.replicate n V := by
  have hmesh := powder_mesh hr n
  have hen : (TetraMesh.ofData (powderLoop r n).1 (powderLoop r n).2.1).enod = (powderLoop r n).2.1 := rfl
  have hco : (TetraMesh.ofData (powderLoop r n).1 (powderLoop r n).2.1).coord = (powderLoop r n).1 := rfl
  obtain ⟨-, hlen, hget⟩ := powderLoop_enod r n
  have hcl := (powderLoop_coord r n).1
  have hperm : ∀ g, List.Perm [(powderPoints r).getD (3 * g % 4) 0, (powderPoints r).getD ((3 * g + 1) % 4) 0, (powderPoints r).getD ((3 * g + 2) % 4) 0,
        (powderPoints r).getD ((3 * g + 3) % 4) 0] (powderPoints r) := by
    intro g
    have hcases : g % 4 = 0 ∨ g % 4 = 1 ∨ g % 4 = 2 ∨ g % 4 = 3 := by omega
    have rot : ∀ a b c d : V3, List.Perm [b, c, d, a] [a, b, c, d] := by
      intro a b c d
      exact (List.perm_append_comm (l₁ := [b, c, d]) (l₂ := [a]))
    rcases hcases with h | h | h | h
    · rw [show 3 * g % 4 = 0 by omega, show (3 * g + 1) % 4 = 1 by omega, show (3 * g + 2) % 4 = 2 by omega, show (3 * g + 3) % 4 = 3 by omega]
      exact List.Perm.refl _
    · rw [show 3 * g % 4 = 3 by omega, show (3 * g + 1) % 4 = 0 by omega, show (3 * g + 2) % 4 = 1 by omega, show (3 * g + 3) % 4 = 2 by omega]
      exact (rot _ _ _ _).symm
    · rw [show 3 * g % 4 = 2 by omega, show (3 * g + 1) % 4 = 3 by omega, show (3 * g + 2) % 4 = 0 by omega, show (3 * g + 3) % 4 = 1 by omega]
      exact (rot _ _ _ _).trans (rot _ _ _ _)
    · rw [show 3 * g % 4 = 1 by omega, show (3 * g + 1) % 4 = 2 by omega, show (3 * g + 2) % 4 = 3 by omega, show (3 * g + 3) % 4 = 0 by omega]
      exact rot _ _ _ _
  have hok : ∃ p, Polycrystal.new xf (TetraMesh.ofData (powderLoop r n).1 (powderLoop r n).2.1)
      (.many ((List.range (powderLoop r n).2.1.length).map rots)) (.one strain) (.many [Phase.new cell sg cif])
      (some (List.replicate (powderLoop r n).2.1.length 0)) = .ok p := by
    have h := (C20_constructor_accepts_iff_feasible xf (TetraMesh.ofData (powderLoop r n).1 (powderLoop r n).2.1)
      ((List.range (powderLoop r n).2.1.length).map rots) (List.replicate (powderLoop r n).2.1.length strain)
      (.many [Phase.new cell sg cif]) (List.replicate (powderLoop r n).2.1.length 0)
      (by simp [hen]) (by simp [hen]) (by simp [hen])
      (by intro e he; rw [List.eq_of_mem_replicate he]; exact hsym)
      (by intro u hu; obtain ⟨i, -, rfl⟩ := List.mem_map.mp hu; exact hrot i)).mpr
      (by intro e i s _ _ hs
          have := List.eq_of_mem_replicate (List.mem_of_getElem? hs)
          rw [this]; exact hfeas)
    obtain ⟨p, hp⟩ := h
    refine ⟨p, ?_⟩
    unfold Polycrystal.new at hp ⊢
    simp only [hen] at hp ⊢
    have e1 : instantiateMat (.many (List.replicate (powderLoop r n).2.1.length strain)) (powderLoop r n).2.1.length =
        instantiateMat (.one strain) (powderLoop r n).2.1.length := by
      simp [instantiateMat]
    rw [e1] at hp
    exact hp
  obtain ⟨p, hp⟩ := hok
  obtain ⟨-, ho, hst, -, -, -, -, -, hml, -, hpm, -⟩ := C59_constructor_broadcasts _ _ _ _ _ _ _ hp
  have hvol : p.meshVolumes = (elements (powderLoop r n).1 (powderLoop r n).2.1).map tetVolume := by
    obtain ⟨U', S', kind, pm, eB, -, -, -, -, rfl⟩ := Polycrystal.new_ok hp
    rfl
  have hph : p.phases = [Phase.new cell sg cif] := by
    obtain ⟨U', S', kind, pm, eB, -, -, -, -, rfl⟩ := Polycrystal.new_ok hp
    rfl
  refine ⟨p, ?_, ?_, ?_, ?_, hph, ?_, ?_, ?_, ?_⟩
  · unfold uniformPowder
    simp only [hmesh, hen]
    exact hp
  · rw [hml]; exact hlen
  · rw [ho _ rfl, hlen]
  · rw [hst _ rfl]; simp only [hen, hlen]
  · rw [hpm _ rfl, hlen]
  · intro g hg
    refine ⟨_, by rw [hml]; exact hget g hg, ?_, ?_⟩
    · intro i hi
      rw [hml]
      simp only [hco, hcl]
      simp only [Q4.toList, List.mem_cons, List.not_mem_nil, or_false] at hi
      omega
    · simp [Q4.toList]
  · intro g hg
    refine ⟨_, ?_, hperm g, ?_⟩
    · unfold Spec.corners
      rw [hml]
      simp only [hen, hco, hget g hg, Option.map_some, Q4.toList, List.map_cons, List.map_nil]
      rw [powder_getD r n _ (by omega), powder_getD r n _ (by omega), powder_getD r n _ (by omega), powder_getD r n _ (by omega)]
    · intro v hv
      exact powder_norm hr ((hperm g).mem_iff.mp hv)
  · refine ⟨tetVolume ⟨(powderPoints r).getD 0 0, (powderPoints r).getD 1 0, (powderPoints r).getD 2 0, (powderPoints r).getD 3 0⟩, ?_, ?_⟩
    · have := powder_volume hr (fun i => (powderPoints r).getD i 0) (fun _ => rfl) 0
      simp only [MulZeroClass.mul_zero, Nat.zero_mod, _root_.zero_add, Nat.one_mod_eq_one.mpr, Nat.reduceMod] at this
      unfold tetVolume
      rw [det_tr, det_edges, abs_mul]
      have h6 : 0 < |signedVolume ⟨(powderPoints r).getD 0 0, (powderPoints r).getD 1 0, (powderPoints r).getD 2 0, (powderPoints r).getD 3 0⟩| :=
        abs_pos.mpr this
      norm_num
      exact this
    · rw [hvol, List.eq_replicate_iff]
      refine ⟨by simp [elements, hlen], ?_⟩
      intro v hv
      obtain ⟨t, ht, rfl⟩ := List.mem_map.mp hv
      obtain ⟨g, hg⟩ := List.mem_iff_getElem?.mp ht
      have hgn : g < n := by
        have := (List.getElem?_eq_some_iff.mp hg).1
        simpa [elements, hlen] using this
      rw [powder_element r n g hgn] at hg
      cases hg
      have rot : ∀ a b c d : V3, tetVolume ⟨b, c, d, a⟩ = tetVolume ⟨a, b, c, d⟩ := by
        intro a b c d
        unfold tetVolume
        rw [det_tr, det_tr, det_edges, det_edges]
        have : signedVolume ⟨b, c, d, a⟩ = -signedVolume ⟨a, b, c, d⟩ := by
          simp only [signedVolume, V3.dot, V3.cross, V3.sub_x, V3.sub_y, V3.sub_z]; ring
        rw [this, mul_neg, abs_neg]
      have hcases : g % 4 = 0 ∨ g % 4 = 1 ∨ g % 4 = 2 ∨ g % 4 = 3 := by omega
      rcases hcases with h | h | h | h
      · rw [show 3 * g % 4 = 0 by omega, show (3 * g + 1) % 4 = 1 by omega, show (3 * g + 2) % 4 = 2 by omega, show (3 * g + 3) % 4 = 3 by omega]
      · rw [show 3 * g % 4 = 3 by omega, show (3 * g + 1) % 4 = 0 by omega, show (3 * g + 2) % 4 = 1 by omega, show (3 * g + 3) % 4 = 2 by omega]
        exact (rot _ _ _ _).symm
      · rw [show 3 * g % 4 = 2 by omega, show (3 * g + 1) % 4 = 3 by omega, show (3 * g + 2) % 4 = 0 by omega, show (3 * g + 3) % 4 = 1 by omega]
        exact (rot _ _ _ _).trans (rot _ _ _ _)
      · rw [show 3 * g % 4 = 1 by omega, show (3 * g + 1) % 4 = 2 by omega, show (3 * g + 2) % 4 = 3 by omega, show (3 * g + 3) % 4 = 0 by omega]
        exact rot _ _ _ _

/-- a powder of three unstrained grains -/
example (xf : Xfab) : ∃ p, uniformPowder xf 1 3 [4, 4, 4, 90, 90, 90] "Fm-3m" (.one 0) none (fun _ => 1) = .ok p := by
  obtain ⟨p, hp, -⟩ := C49_powder xf 1 one_pos 3 [4, 4, 4, 90, 90, 90] "Fm-3m" 0 none (fun _ => 1) (fun _ => isRot_one) rfl (by
    intro v hv
    have : 0 < nsq v := lt_of_le_of_ne (nsq_nonneg v) (fun h => hv (nsq_eq_zero.mp h.symm))
    simpa [mulVec, V3.dot] using this)
  exact ⟨p, hp⟩

end XRD
