import Verif.Model.Circum
import Verif.Props.Sphere
import Verif.Model.Proximity
import Mathlib.LinearAlgebra.Matrix.ToLinearEquiv
import Mathlib.LinearAlgebra.FiniteDimensional.Lemmas

/-! Properties C90 and C91: the deprecated circumsphere and interval helpers, and the logging switch. -/

namespace XRD.Spec
open XRD V3

/-- `c` has the same distance to all points -/
def Equidistant (pts : List V3) (c : V3) : Prop := ∀ p ∈ pts, ∀ q ∈ pts, V3.dist p c = V3.dist q c

/-- `c` is an affine combination of the points -/
def InAffineHull (pts : List V3) (c : V3) : Prop :=
  ∃ w : Fin pts.length → ℝ, ∑ i, w i = 1 ∧ c = ∑ i, w i • pts.get i

/-- no point is an affine combination of the others -/
def AffinelyIndependent (pts : List V3) : Prop :=
  ∀ w : Fin pts.length → ℝ, ∑ i, w i = 0 → ∑ i, w i • pts.get i = 0 → ∀ i, w i = 0
end XRD.Spec

namespace XRD
open V3 Spec
open scoped Classical

theorem dot_sum' {ι : Type*} (s : Finset ι) (a : V3) (x : ι → ℝ) (d : ι → V3) :
    a.dot (∑ j ∈ s, x j • d j) = ∑ j ∈ s, x j * a.dot (d j) := by
  induction s using Finset.induction_on with
  | empty => simp [V3.dot]
  | insert i s hi ih =>
    rw [Finset.sum_insert hi, Finset.sum_insert hi, ← ih]
    simp only [V3.dot, V3.add_x, V3.add_y, V3.add_z, V3.smul_x, V3.smul_y, V3.smul_z]; ring

/-- the differences, their Gram matrix and the solution -/
theorem circum_ok {p0 : V3} {rest : List V3} {c : V3} (h : circumCentroid (p0 :: rest) = .ok c) :
    ∃ x : Fin rest.length → ℝ, c = p0 + ∑ j, x j • (p0 - rest.get j) ∧
      ∀ i, 2 * (p0 - rest.get i).dot (c - p0) = -nsq (p0 - rest.get i) := by
  unfold circumCentroid at h
  dsimp only at h
  split_ifs at h with hd
  injection h with h
  set M : Matrix (Fin rest.length) (Fin rest.length) ℝ := Matrix.of fun i j => ((2 : ℝ) • (p0 - rest.get i)).dot (p0 - rest.get j) with hM
  obtain ⟨x, hx⟩ : ∃ x, x = M⁻¹.mulVec fun i => p0.dot p0 - (rest.get i).dot (rest.get i) - ((2 : ℝ) • (p0 - rest.get i)).dot p0 := ⟨_, rfl⟩
  rw [← hx] at h
  have hsol : M.mulVec x = fun i => p0.dot p0 - (rest.get i).dot (rest.get i) - ((2 : ℝ) • (p0 - rest.get i)).dot p0 := by
    rw [hx, Matrix.mulVec_mulVec, Matrix.mul_nonsing_inv _ (isUnit_iff_ne_zero.mpr hd), Matrix.one_mulVec]
  refine ⟨x, h.symm, fun i => ?_⟩
  have hi := congrFun hsol i
  have e : M.mulVec x i = 2 * (p0 - rest.get i).dot (c - p0) := by
    have : c - p0 = ∑ j, x j • (p0 - rest.get j) := by rw [← h]; abel
    rw [this, dot_sum', Finset.mul_sum]
    simp only [Matrix.mulVec, dotProduct, hM, Matrix.of_apply]
    apply Finset.sum_congr rfl
    intro j _
    simp only [V3.dot, V3.smul_x, V3.smul_y, V3.smul_z]; ring
  rw [← e, hi]
  simp only [nsq, V3.dot, V3.sub_x, V3.sub_y, V3.sub_z, V3.smul_x, V3.smul_y, V3.smul_z]; ring

theorem equidistant_iff (p0 : V3) (rest : List V3) (c : V3) :
    Equidistant (p0 :: rest) c ↔ ∀ i : Fin rest.length, 2 * (p0 - rest.get i).dot (c - p0) = -nsq (p0 - rest.get i) := by
  have key : ∀ p : V3, V3.dist p c = V3.dist p0 c ↔ 2 * (p0 - p).dot (c - p0) = -nsq (p0 - p) := by
    intro p
    unfold V3.dist V3.norm
    rw [Real.sqrt_inj (nsq_nonneg _) (nsq_nonneg _)]
    simp only [nsq, V3.dot, V3.sub_x, V3.sub_y, V3.sub_z]
    constructor <;> intro h <;> linarith
  constructor
  · intro h i
    exact (key _).mp (h _ (List.mem_cons_of_mem _ (List.get_mem rest i)) _ List.mem_cons_self)
  · intro h p hp q hq
    have all : ∀ p ∈ p0 :: rest, V3.dist p c = V3.dist p0 c := by
      intro p hp
      rcases List.mem_cons.mp hp with rfl | hp
      · rfl
      · obtain ⟨i, rfl⟩ := List.get_of_mem hp
        exact (key _).mpr (h i)
    rw [all p hp, all q hq]

/-- **C90** The helper returns the circumcentre: a point of the affine hull of the given points with the same distance to all of them, and
no other point equidistant to them is closer. -/
theorem C90_circumcentre (pts : List V3) (c : V3) (h : circumCentroid pts = .ok c) :
    Equidistant pts c ∧ InAffineHull pts c ∧ ∀ c', Equidistant pts c' → ∀ p ∈ pts, V3.dist p c ≤ V3.dist p c' := by
  cases pts with
  | nil => simp [circumCentroid] at h
  | cons p0 rest =>
    obtain ⟨x, hc, hs⟩ := circum_ok h
    have heq := (equidistant_iff p0 rest c).mpr hs
    refine ⟨heq, ?_, ?_⟩
    · refine ⟨Fin.cons (1 + ∑ j, x j) fun j => -x j, ?_, ?_⟩
      · show ∑ i : Fin (rest.length + 1), _ = _
        rw [Fin.sum_univ_succ]
        simp
      · show c = ∑ i : Fin (rest.length + 1), _
        rw [Fin.sum_univ_succ, hc]
        simp only [Fin.cons_zero, Fin.cons_succ, List.get_eq_getElem, Fin.val_zero, Fin.val_succ, List.getElem_cons_zero,
          List.getElem_cons_succ]
        rw [add_smul, one_smul, Finset.sum_smul, add_assoc, ← Finset.sum_add_distrib]
        congr 1
        apply Finset.sum_congr rfl
        intro j _
        rw [smul_sub, neg_smul, sub_eq_add_neg]
    · intro c' hc' p hp
      have hs' := (equidistant_iff p0 rest c').mp hc'
      rw [heq p hp p0 List.mem_cons_self, hc' p hp p0 List.mem_cons_self]
      have orth : (c' - c).dot (c - p0) = 0 := by
        have : c - p0 = ∑ j, x j • (p0 - rest.get j) := by rw [hc]; abel
        rw [this, dot_sum']
        apply Finset.sum_eq_zero
        intro j _
        have a := hs j
        have b := hs' j
        have : (c' - c).dot (p0 - rest.get j) = 0 := by
          have e : (c' - c).dot (p0 - rest.get j) = (p0 - rest.get j).dot (c' - p0) - (p0 - rest.get j).dot (c - p0) := by
            simp only [V3.dot, V3.sub_x, V3.sub_y, V3.sub_z]; ring
          rw [e]; linarith
        rw [this]; simp
      unfold V3.dist V3.norm
      apply Real.sqrt_le_sqrt
      have e : nsq (p0 - c') = nsq (p0 - c) + nsq (c' - c) + 2 * (c' - c).dot (c - p0) := by
        simp only [nsq, V3.dot, V3.sub_x, V3.sub_y, V3.sub_z]; ring
      rw [e, orth]
      linarith [nsq_nonneg (c' - c)]

/-- the Gram matrix is singular exactly if the differences are linearly dependent -/
theorem gram_singular {n : ℕ} (d : Fin n → V3) :
    (Matrix.of fun i j => ((2 : ℝ) • d i).dot (d j) : Matrix (Fin n) (Fin n) ℝ).det = 0 ↔ ∃ v : Fin n → ℝ, v ≠ 0 ∧ ∑ j, v j • d j = 0 := by
  rw [← Matrix.exists_mulVec_eq_zero_iff]
  have row : ∀ (v : Fin n → ℝ) (i : Fin n), (Matrix.of fun i j => ((2 : ℝ) • d i).dot (d j)).mulVec v i = 2 * (d i).dot (∑ j, v j • d j) := by
    intro v i
    rw [dot_sum', Finset.mul_sum]
    simp only [Matrix.mulVec, dotProduct, Matrix.of_apply]
    apply Finset.sum_congr rfl
    intro j _
    simp only [V3.dot, V3.smul_x, V3.smul_y, V3.smul_z]; ring
  constructor
  · rintro ⟨v, hv, hz⟩
    refine ⟨v, hv, ?_⟩
    have h0 : ∀ i, (d i).dot (∑ j, v j • d j) = 0 := by
      intro i
      have := congrFun hz i
      rw [row] at this
      simpa using this
    have h1 : nsq (∑ j, v j • d j) = 0 := by
      unfold nsq
      rw [dot_sum' Finset.univ (∑ j, v j • d j) v d]
      apply Finset.sum_eq_zero
      intro i _
      have : (∑ j, v j • d j).dot (d i) = (d i).dot (∑ j, v j • d j) := by simp only [V3.dot]; ring
      rw [this, h0]; simp
    exact nsq_eq_zero.mp h1
  · rintro ⟨v, hv, hz⟩
    refine ⟨v, hv, ?_⟩
    funext i
    rw [row, hz]
    simp [V3.dot]

theorem affine_iff (p0 : V3) (rest : List V3) : AffinelyIndependent (p0 :: rest) ↔
    ¬ ∃ v : Fin rest.length → ℝ, v ≠ 0 ∧ ∑ j, v j • (p0 - rest.get j) = 0 := by
  constructor
  · rintro h ⟨v, hv, hz⟩
    apply hv
    have key := h (Fin.cons (∑ j, v j) fun j => -v j) (by
      show ∑ i : Fin (rest.length + 1), _ = _
      rw [Fin.sum_univ_succ]; simp) (by
      show ∑ i : Fin (rest.length + 1), _ = _
      rw [Fin.sum_univ_succ]
      simp only [Fin.cons_zero, Fin.cons_succ, List.get_eq_getElem, Fin.val_zero, Fin.val_succ, List.getElem_cons_zero,
          List.getElem_cons_succ]
      rw [Finset.sum_smul, ← Finset.sum_add_distrib, ← hz]
      apply Finset.sum_congr rfl
      intro j _
      rw [smul_sub, neg_smul, sub_eq_add_neg]; rfl)
    funext j
    have := key (Fin.succ j)
    simpa using this
  · intro h w hw hz
    have hw' : w (0 : Fin (rest.length + 1)) = -∑ j : Fin rest.length, w (Fin.succ j) := by
      have : ∑ i : Fin (rest.length + 1), w i = 0 := hw
      rw [Fin.sum_univ_succ] at this; linarith
    have hd : ∑ j : Fin rest.length, (w (Fin.succ j)) • (p0 - rest.get j) = 0 := by
      have h2 : ∑ i : Fin (rest.length + 1), w i • (p0 :: rest).get i = 0 := hz
      rw [Fin.sum_univ_succ, hw'] at h2
      simp only [List.get_eq_getElem, Fin.val_zero, Fin.val_succ, List.getElem_cons_zero, List.getElem_cons_succ, neg_smul, Finset.sum_smul] at h2
      simp only [smul_sub, Finset.sum_sub_distrib, List.get_eq_getElem]
      rw [neg_add_eq_zero] at h2
      rw [h2, sub_self]
    have hall : ∀ j : Fin rest.length, w (Fin.succ j) = 0 := by
      by_contra hne
      exact h ⟨fun j => w (Fin.succ j), fun e => hne fun j => congrFun e j, hd⟩
    intro i
    refine Fin.cases (motive := fun i : Fin (rest.length + 1) => w i = 0) ?_ hall i
    rw [hw']; simp [hall]

/-- **C90** It succeeds exactly for a non-empty, affinely independent list of points. -/
theorem C90_accepts_iff (pts : List V3) : (∃ c, circumCentroid pts = .ok c) ↔ pts ≠ [] ∧ AffinelyIndependent pts := by
  cases pts with
  | nil => simp [circumCentroid]
  | cons p0 rest =>
    rw [affine_iff, ← gram_singular]
    unfold circumCentroid
    dsimp only
    split_ifs with h
    · exact ⟨fun ⟨c, hc⟩ => by simp at hc, fun ⟨_, hn⟩ => absurd h hn⟩
    · exact ⟨fun _ => ⟨by simp, h⟩, fun _ => ⟨_, rfl⟩⟩

/-- **C90** So it never accepts five or more points, whatever they are: `LinAlgError`. -/
theorem C90_never_five (pts : List V3) (h : 5 ≤ pts.length) : circumCentroid pts = .error .valueError := by
  cases pts with
  | nil => simp at h
  | cons p0 rest =>
    have hr : 3 < rest.length := by simp at h; omega
    have hdep : ∃ v : Fin rest.length → ℝ, v ≠ 0 ∧ ∑ j, v j • (p0 - rest.get j) = 0 := by
      let f : (Fin rest.length → ℝ) →ₗ[ℝ] (Fin 3 → ℝ) :=
        { toFun := fun v => ![(∑ j, v j • (p0 - rest.get j)).x, (∑ j, v j • (p0 - rest.get j)).y, (∑ j, v j • (p0 - rest.get j)).z]
          map_add' := by
            intro u v
            simp only [Pi.add_apply, add_smul, Finset.sum_add_distrib, V3.add_x, V3.add_y, V3.add_z]
            ext i; fin_cases i <;> simp
          map_smul' := by
            intro c v
            simp only [Pi.smul_apply, smul_eq_mul, mul_smul, ← Finset.smul_sum, V3.smul_x, V3.smul_y, V3.smul_z, RingHom.id_apply]
            ext i; fin_cases i <;> simp }
      have hk : LinearMap.ker f ≠ ⊥ := LinearMap.ker_ne_bot_of_finrank_lt (by simp; exact hr)
      obtain ⟨v, hv, hne⟩ := (Submodule.ne_bot_iff _).mp hk
      refine ⟨v, hne, ?_⟩
      have h0 : f v = 0 := hv
      ext
      · simpa [f] using congrFun h0 0
      · simpa [f] using congrFun h0 1
      · simpa [f] using congrFun h0 2
    unfold circumCentroid
    dsimp only
    rw [if_pos ((gram_singular fun i => p0 - rest.get i).mpr hdep)]

/-- the corner of the unit cube: its circumcentre is the centre of the cube -/
example : circumCentroid [⟨0, 0, 0⟩, ⟨1, 0, 0⟩, ⟨0, 1, 0⟩, ⟨0, 0, 1⟩] = .ok ⟨1 / 2, 1 / 2, 1 / 2⟩ := by
  have hind : AffinelyIndependent [(⟨0, 0, 0⟩ : V3), ⟨1, 0, 0⟩, ⟨0, 1, 0⟩, ⟨0, 0, 1⟩] := by
    intro w h1 h2
    have hx := congrArg V3.x h2
    have hy := congrArg V3.y h2
    have hz := congrArg V3.z h2
    simp [Fin.sum_univ_four] at h1 hx hy hz
    intro i
    have h0 : w 0 = 0 := by linarith
    fin_cases i
    · exact h0
    · exact hx
    · exact hy
    · exact hz
  obtain ⟨c, hc⟩ := (C90_accepts_iff _).mpr ⟨by simp, hind⟩
  have h := (C90_circumcentre _ c hc).1
  have s := (equidistant_iff _ _ c).mp h
  rw [hc]
  have s0 := s ⟨0, by simp⟩
  have s1 := s ⟨1, by simp⟩
  have s2 := s ⟨2, by simp⟩
  simp [nsq, V3.dot] at s0 s1 s2
  congr 1
  ext
  · show c.x = 1 / 2; linarith
  · show c.y = 1 / 2; linarith
  · show c.z = 1 / 2; linarith

/-- **C90** For the four corners of a tetrahedron of non-zero volume it returns the centre the mesh computes as the circumsphere of that
tetrahedron. -/
theorem C90_same_as_mesh (t : Tet) (ht : signedVolume t ≠ 0) : circumCentroid [t.a, t.b, t.c, t.d] = .ok (sphere4 t).1 := by
  have hind : AffinelyIndependent [t.a, t.b, t.c, t.d] := by
    intro w h1 h2
    have hx := congrArg V3.x h2
    have hy := congrArg V3.y h2
    have hz := congrArg V3.z h2
    simp [Fin.sum_univ_four] at h1 hx hy hz
    have h0 : w 0 = -(w 1 + w 2 + w 3) := by linarith
    rw [h0] at hx hy hz
    have ex : w 1 * (t.b - t.a).x + w 2 * (t.c - t.a).x + w 3 * (t.d - t.a).x = 0 := by simp only [V3.sub_x]; linarith
    have ey : w 1 * (t.b - t.a).y + w 2 * (t.c - t.a).y + w 3 * (t.d - t.a).y = 0 := by simp only [V3.sub_y]; linarith
    have ez : w 1 * (t.b - t.a).z + w 2 * (t.c - t.a).z + w 3 * (t.d - t.a).z = 0 := by simp only [V3.sub_z]; linarith
    have hv : (t.b - t.a).dot ((t.c - t.a).cross (t.d - t.a)) ≠ 0 := by
      intro h; apply ht
      have : signedVolume t = (t.b - t.a).dot ((t.c - t.a).cross (t.d - t.a)) / 6 := by
        simp only [signedVolume, V3.dot, V3.cross, V3.sub_x, V3.sub_y, V3.sub_z]; ring
      rw [this, h]; simp
    have w1 : w 1 = 0 := by
      have : w 1 * (t.b - t.a).dot ((t.c - t.a).cross (t.d - t.a)) = 0 := by
        simp only [V3.dot, V3.cross]
        linear_combination ex * ((t.c - t.a).y * (t.d - t.a).z - (t.c - t.a).z * (t.d - t.a).y) +
          ey * ((t.c - t.a).z * (t.d - t.a).x - (t.c - t.a).x * (t.d - t.a).z) +
          ez * ((t.c - t.a).x * (t.d - t.a).y - (t.c - t.a).y * (t.d - t.a).x)
      exact (mul_eq_zero.mp this).resolve_right hv
    have w2 : w 2 = 0 := by
      have : w 2 * (t.b - t.a).dot ((t.c - t.a).cross (t.d - t.a)) = 0 := by
        simp only [V3.dot, V3.cross]
        linear_combination ex * ((t.d - t.a).y * (t.b - t.a).z - (t.d - t.a).z * (t.b - t.a).y) +
          ey * ((t.d - t.a).z * (t.b - t.a).x - (t.d - t.a).x * (t.b - t.a).z) +
          ez * ((t.d - t.a).x * (t.b - t.a).y - (t.d - t.a).y * (t.b - t.a).x)
      exact (mul_eq_zero.mp this).resolve_right hv
    have w3 : w 3 = 0 := by
      have : w 3 * (t.b - t.a).dot ((t.c - t.a).cross (t.d - t.a)) = 0 := by
        simp only [V3.dot, V3.cross]
        linear_combination ex * ((t.b - t.a).y * (t.c - t.a).z - (t.b - t.a).z * (t.c - t.a).y) +
          ey * ((t.b - t.a).z * (t.c - t.a).x - (t.b - t.a).x * (t.c - t.a).z) +
          ez * ((t.b - t.a).x * (t.c - t.a).y - (t.b - t.a).y * (t.c - t.a).x)
      exact (mul_eq_zero.mp this).resolve_right hv
    intro i
    fin_cases i
    · show w 0 = 0; rw [h0, w1, w2, w3]; norm_num
    · exact w1
    · exact w2
    · exact w3
  obtain ⟨c, hc⟩ := (C90_accepts_iff _).mpr ⟨by simp, hind⟩
  have h := (C90_circumcentre _ c hc).1
  have sq : ∀ p ∈ [t.a, t.b, t.c, t.d], nsq (p - c) = nsq (t.a - c) := by
    intro p hp
    have := h p hp t.a (by simp)
    unfold V3.dist V3.norm at this
    rwa [Real.sqrt_inj (nsq_nonneg _) (nsq_nonneg _)] at this
  rw [hc, (sphere4_spec ht c).mpr ⟨sq _ (by simp), sq _ (by simp), sq _ (by simp)⟩]

/-- **C90** The interval helper answers whether the value lies in one of the closed intervals. -/
theorem C90_contained_iff (v : ℝ) (l : List (ℝ × ℝ)) : containedByIntervals v l = true ↔ ∃ b ∈ l, b.1 ≤ v ∧ v ≤ b.2 := by
  induction l with
  | nil => simp [containedByIntervals]
  | cons b bs ih =>
    unfold containedByIntervals
    split_ifs with h
    · simp only [true_iff]; exact ⟨b, List.mem_cons_self, h.1, h.2⟩
    · rw [ih]
      simp only [List.mem_cons, exists_eq_or_imp]
      constructor
      · exact Or.inr
      · rintro (h' | h')
        · exact absurd ⟨h'.1, h'.2⟩ h
        · exact h'

/-- membership in intervals: a value in the second of two intervals -/
example : containedByIntervals (1 / 2) [(2, 3), (0, 1)] = true := by
  rw [C90_contained_iff]; exact ⟨(0, 1), by simp, by norm_num, by norm_num⟩

/-! ### C91: the logging switch -/

theorem setXfabLogging_apply (v : Bool) (l : Loggers) (name : String) :
    setXfabLogging v l name = if name ∈ xfabModules.map ("xfab." ++ ·) then v else l name := by
  unfold setXfabLogging
  have gen : ∀ (ms : List String) (l : Loggers), (ms.foldl (fun l m => fun name => if name = "xfab." ++ m then v else l name) l) name =
      if name ∈ ms.map ("xfab." ++ ·) then v else l name := by
    intro ms
    induction ms with
    | nil => intro l; simp
    | cons m ms ih =>
      intro l
      rw [List.foldl_cons, ih]
      simp only [List.map_cons, List.mem_cons]
      by_cases h1 : name ∈ ms.map ("xfab." ++ ·)
      · simp [h1]
      · by_cases h2 : name = "xfab." ++ m <;> simp [h1, h2]
  exact gen xfabModules l

/-- the loggers of xfab that the package silences (utils.py:_set_xfab_logging lists the modules) -/
def Spec.xfabLoggers : List String := ["xfab.tools", "xfab.structure", "xfab.atomlib", "xfab.detector", "xfab.checks", "xfab.sg", "xfab.sglib",
  "xfab.symmetry"]

theorem xfabLoggers_eq : Spec.xfabLoggers = xfabModules.map ("xfab." ++ ·) := by simp [Spec.xfabLoggers, xfabModules]

open Spec (xfabLoggers)

/-- **C91** Only the eight xfab loggers are ever touched; inside a verbose block they are all enabled, and after it all disabled, whatever
the body did.  A block that is not verbose changes nothing. -/
theorem C91_verbose_block_partial (verbose : Bool) (body : Loggers → Loggers) (l : Loggers) :
    (∀ name, name ∉ xfabLoggers → (verboseBlock verbose body l).1 name = l name ∧
      (verboseBlock verbose body l).2 name = body (verboseBlock verbose body l).1 name) ∧
    (verbose = true → ∀ name ∈ xfabLoggers, (verboseBlock verbose body l).1 name = false ∧
      (verboseBlock verbose body l).2 name = true) ∧
    (verbose = false → verboseBlock verbose body l = (l, body l)) := by
  simp only [xfabLoggers_eq]
  refine ⟨fun name hn => ?_, fun hv name hn => ?_, fun hv => ?_⟩
  · cases verbose
    · exact ⟨rfl, rfl⟩
    · simp only [verboseBlock, if_true, setXfabLogging_apply, if_neg hn, and_self]
  · subst hv
    simp only [verboseBlock, if_true, setXfabLogging_apply, if_pos hn, and_self]
  · subst hv; rfl

/-- **C91** fails: a verbose block around code that leaves the loggers alone does not restore them: a user who enabled xfab logging finds
it disabled afterwards. -/
theorem C91_not_restored_fails : ∃ l : Loggers, ∃ name, l name = false ∧ (verboseBlock true id l).2 name = true := by
  refine ⟨fun _ => false, "xfab.tools", rfl, ?_⟩
  exact ((C91_verbose_block_partial true id _).2.1 rfl "xfab.tools" (by simp [xfabLoggers])).2

/-- **C91** Exactly when a verbose block around code that leaves the loggers alone restores every flag. -/
theorem C91_restored_iff (l : Loggers) :
    (verboseBlock true id l).2 = l ↔ ∀ name ∈ xfabLoggers, l name = true := by
  constructor
  · intro h name hn
    rw [← h]
    exact ((C91_verbose_block_partial true id l).2.1 rfl name hn).2
  · intro h
    funext name
    by_cases hn : name ∈ xfabLoggers
    · rw [((C91_verbose_block_partial true id l).2.1 rfl name hn).2, h name hn]
    · obtain ⟨a, b⟩ := (C91_verbose_block_partial true id l).1 name hn
      rw [b]; exact a

end XRD
