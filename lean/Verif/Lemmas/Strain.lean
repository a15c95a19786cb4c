import Verif.Model.Strain
import Mathlib.Tactic.Positivity

namespace XRD
open V3 M3

theorem quad_symL (c : M3) (v : V3) : v.dot ((symL c).mulVec v) =
    c.r0.x * v.x ^ 2 + c.r1.y * v.y ^ 2 + c.r2.z * v.z ^ 2 + 2 * c.r1.x * v.x * v.y + 2 * c.r2.x * v.x * v.z
      + 2 * c.r2.y * v.y * v.z := by
  simp [symL, mulVec, V3.dot]; ring

/-- completing the squares -/
theorem quad_pivots (c : M3) (h0 : c.r0.x ≠ 0) (h1 : cholP2 c ≠ 0) (v : V3) : v.dot ((symL c).mulVec v) =
    c.r0.x * (v.x + c.r1.x / c.r0.x * v.y + c.r2.x / c.r0.x * v.z) ^ 2
      + cholP2 c * (v.y + cholQ c / cholP2 c * v.z) ^ 2 + cholP3 c * v.z ^ 2 := by
  rw [quad_symL]
  unfold cholP3
  have e1 : cholP2 c * (v.y + cholQ c / cholP2 c * v.z) ^ 2
      = cholP2 c * v.y ^ 2 + 2 * cholQ c * v.y * v.z + cholQ c ^ 2 / cholP2 c * v.z ^ 2 := by field_simp; ring
  rw [e1]
  unfold cholP2 cholQ
  field_simp
  ring

theorem posdef_pivots {c : M3} (h : ∀ v : V3, v ≠ 0 → 0 < v.dot ((symL c).mulVec v)) :
    0 < c.r0.x ∧ 0 < cholP2 c ∧ 0 < cholP3 c := by
  have h0 : 0 < c.r0.x := by
    have := h ⟨1, 0, 0⟩ (by intro h'; simpa using congrArg V3.x h')
    rw [quad_symL] at this; simpa using this
  have h1 : 0 < cholP2 c := by
    have := h ⟨-(c.r1.x / c.r0.x), 1, 0⟩ (by intro h'; simpa using congrArg V3.y h')
    rw [quad_symL] at this
    unfold cholP2
    have e : c.r0.x * (-(c.r1.x / c.r0.x)) ^ 2 + c.r1.y * 1 ^ 2 + c.r2.z * 0 ^ 2 + 2 * c.r1.x * (-(c.r1.x / c.r0.x)) * 1
        + 2 * c.r2.x * (-(c.r1.x / c.r0.x)) * 0 + 2 * c.r2.y * 1 * 0 = c.r1.y - c.r1.x ^ 2 / c.r0.x := by
      field_simp; ring
    linarith
  refine ⟨h0, h1, ?_⟩
  have := h ⟨-(c.r1.x / c.r0.x * (-(cholQ c / cholP2 c)) + c.r2.x / c.r0.x), -(cholQ c / cholP2 c), 1⟩
    (by intro h'; simpa using congrArg V3.z h')
  rw [quad_pivots c h0.ne' h1.ne'] at this
  simp only at this
  have e : (-(c.r1.x / c.r0.x * (-(cholQ c / cholP2 c)) + c.r2.x / c.r0.x) + c.r1.x / c.r0.x * (-(cholQ c / cholP2 c))
      + c.r2.x / c.r0.x * 1) = 0 := by ring
  have e2 : (-(cholQ c / cholP2 c) + cholQ c / cholP2 c * 1) = 0 := by ring
  rw [e, e2] at this
  simpa using this

theorem pivots_posdef {c : M3} (h0 : 0 < c.r0.x) (h1 : 0 < cholP2 c) (h2 : 0 < cholP3 c) (v : V3) (hv : v ≠ 0) :
    0 < v.dot ((symL c).mulVec v) := by
  rw [quad_pivots c h0.ne' h1.ne']
  by_cases hz : v.z = 0
  · by_cases hy : v.y = 0
    · have hx : v.x ≠ 0 := fun hx => hv (V3.ext hx hy hz)
      rw [hy, hz]; simp; positivity
    · rw [hz]; simp
      have : 0 < cholP2 c * v.y ^ 2 := by positivity
      nlinarith [mul_nonneg h0.le (sq_nonneg (v.x + c.r1.x / c.r0.x * v.y))]
  · have : 0 < cholP3 c * v.z ^ 2 := by positivity
    nlinarith [mul_nonneg h0.le (sq_nonneg (v.x + c.r1.x / c.r0.x * v.y + c.r2.x / c.r0.x * v.z)),
      mul_nonneg h1.le (sq_nonneg (v.y + cholQ c / cholP2 c * v.z))]

theorem cholesky_ok_iff (c : M3) : (∃ L, cholesky c = .ok L) ↔ ∀ v : V3, v ≠ 0 → 0 < v.dot ((symL c).mulVec v) := by
  constructor
  · rintro ⟨L, h⟩ v hv
    unfold cholesky at h
    split_ifs at h with h0 h1 h2
    exact pivots_posdef h0 h1 h2 v hv
  · intro h
    obtain ⟨h0, h1, h2⟩ := posdef_pivots h
    unfold cholesky; rw [if_pos h0, if_pos h1, if_pos h2]
    exact ⟨_, rfl⟩

/-- shape and defining equation of the Cholesky factor -/
theorem cholesky_spec {c L : M3} (h : cholesky c = .ok L) :
    L * L.tr = symL c ∧ L.r0.y = 0 ∧ L.r0.z = 0 ∧ L.r1.z = 0 ∧ 0 < L.r0.x ∧ 0 < L.r1.y ∧ 0 < L.r2.z := by
  unfold cholesky at h
  split_ifs at h with h0 h1 h2
  obtain rfl := Except.ok.inj h
  have s0 := Real.sqrt_pos.mpr h0
  have s1 := Real.sqrt_pos.mpr h1
  have s2 := Real.sqrt_pos.mpr h2
  have q0 := Real.mul_self_sqrt h0.le
  have q1 := Real.mul_self_sqrt h1.le
  have q2 := Real.mul_self_sqrt h2.le
  refine ⟨?_, rfl, rfl, rfl, s0, s1, s2⟩
  have w0 : Real.sqrt c.r0.x ≠ 0 := s0.ne'
  have w1 : Real.sqrt (cholP2 c) ≠ 0 := s1.ne'
  have d0 : ∀ a b : ℝ, a / Real.sqrt c.r0.x * (b / Real.sqrt c.r0.x) = a * b / c.r0.x := by
    intro a b; rw [div_mul_div_comm, q0]
  have d1 : ∀ a b : ℝ, a / Real.sqrt (cholP2 c) * (b / Real.sqrt (cholP2 c)) = a * b / cholP2 c := by
    intro a b; rw [div_mul_div_comm, q1]
  ext <;> simp [vecMul, tr, symL, q0, q1, q2, d0, d1]
  · rw [mul_div_cancel₀ _ w0]
  · rw [mul_div_cancel₀ _ w0]
  · rw [div_mul_cancel₀ _ w0]
  · unfold cholP2; ring
  · rw [mul_div_cancel₀ _ w1]; unfold cholQ; ring
  · rw [div_mul_cancel₀ _ w0]
  · rw [div_mul_cancel₀ _ w1]; unfold cholQ; ring
  · unfold cholP3; ring

theorem tri_det {L : M3} (h1 : L.r0.y = 0) (h2 : L.r0.z = 0) (h3 : L.r1.z = 0) : L.det = L.r0.x * L.r1.y * L.r2.z := by
  simp [det, h1, h2, h3]; ring

theorem batch_ok {α β : Type} {f : α → Except PyErr β} {l : List α} {bs : List β} (h : batch f l = .ok bs) :
    bs.length = l.length ∧ ∀ i (hi : i < l.length) (hb : i < bs.length), f l[i] = .ok bs[i] := by
  induction l generalizing bs with
  | nil => obtain rfl := Except.ok.inj h; simp
  | cons a l ih =>
    simp only [batch] at h
    split at h
    · cases h
    · rename_i b hb
      split at h
      · cases h
      · rename_i bs' hbs
        obtain rfl := Except.ok.inj h
        obtain ⟨hl, hh⟩ := ih hbs
        refine ⟨by simp [hl], ?_⟩
        intro i hi hb'
        cases i with
        | zero => exact hb
        | succ i => simpa using hh i (by simpa using hi) (by simpa using hb')

theorem batch_of_all {α β : Type} {f : α → Except PyErr β} {l : List α} (h : ∀ a ∈ l, ∃ b, f a = .ok b) :
    ∃ bs, batch f l = .ok bs := by
  induction l with
  | nil => exact ⟨[], rfl⟩
  | cons a l ih =>
    obtain ⟨b, hb⟩ := h a (by simp)
    obtain ⟨bs, hbs⟩ := ih fun x hx => h x (by simp [hx])
    exact ⟨b :: bs, by simp [batch, hb, hbs]⟩

end XRD
