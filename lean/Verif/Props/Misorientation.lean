import Verif.Model.Export
import Verif.Lemmas.Euler
import Verif.Lemmas.Mesh
import Verif.Lemmas.Turn

/-! Property C83: the misorientations reported for a sample. -/

namespace XRD.Spec
open XRD V3 M3
/-- `θ` is the smallest angle of a rotation that takes the orientation `M` into the orientation `U`. -/
def SmallestAngle (M U : M3) (θ : ℝ) : Prop :=
  0 ≤ θ ∧ θ ≤ Real.pi ∧ (∃ n : V3, norm n = 1 ∧ ∀ v, rotate n θ (M.mulVec v) = U.mulVec v) ∧
  ∀ (n : V3) (w : ℝ), norm n = 1 → (∀ v, rotate n w (M.mulVec v) = U.mulVec v) → θ ≤ |w|
/-- squared distance of two matrices, summed over the entries -/
def entryDist (A B : M3) : ℝ := nsq (A.r0 - B.r0) + nsq (A.r1 - B.r1) + nsq (A.r2 - B.r2)
/-- `M` is a mean of the orientations: a rotation with the least sum of squared distances to them (the definition of
`scipy.spatial.transform.Rotation.mean`) -/
def BestMean (Us : List M3) (M : M3) : Prop :=
  IsRot M ∧ ∀ Q, IsRot Q → (Us.map fun U => entryDist U M).sum ≤ (Us.map fun U => entryDist U Q).sum
end XRD.Spec

namespace XRD
open V3 M3 Spec

theorem isRot_mul {A B : M3} (ha : IsRot A) (hb : IsRot B) : IsRot (A * B) := by
  refine ⟨?_, ?_, ?_⟩
  · rw [tr_mul, mul_assoc', ← mul_assoc' A.tr, ha.1, one_mul', hb.1]
  · rw [tr_mul, mul_assoc', ← mul_assoc' B, hb.2.1, one_mul', ha.2.1]
  · rw [det_mul, ha.2.2, hb.2.2, one_mul]

theorem isRot_tr {A : M3} (ha : IsRot A) : IsRot A.tr := ⟨ha.2.1, ha.1, by rw [det_tr, ha.2.2]⟩

theorem eq_of_mulVec {A B : M3} (h : ∀ v, A.mulVec v = B.mulVec v) : A = B := by
  have h1 := h ⟨1, 0, 0⟩
  have h2 := h ⟨0, 1, 0⟩
  have h3 := h ⟨0, 0, 1⟩
  simp only [mulVec, V3.dot, V3.ext_iff] at h1 h2 h3
  ext <;> linarith [h1.1, h1.2.1, h1.2.2, h2.1, h2.2.1, h2.2.2, h3.1, h3.2.1, h3.2.2]

theorem smallestAngle_magnitude {M U : M3} (hM : IsRot M) (hU : IsRot U) : SmallestAngle M U (magnitude (U * M.tr)) := by
  have hR : IsRot (U * M.tr) := isRot_mul hU (isRot_tr hM)
  refine ⟨Real.arccos_nonneg _, Real.arccos_le_pi _, ?_, ?_⟩
  · obtain ⟨n, hn, e⟩ := euler_rotation hR
    refine ⟨n, norm_eq_one.mpr hn, fun v => ?_⟩
    rw [← rotMat_eq_spec hn]
    have : rotMat n (magnitude (U * M.tr)) = U * M.tr := e.symm
    rw [this, ← mulVec_mul, mul_assoc', hM.1, mul_one']
  · intro n w hn h
    rw [norm_eq_one] at hn
    have e : rotMat n w * M = U := by
      apply eq_of_mulVec
      intro v
      rw [mulVec_mul, rotMat_eq_spec hn, h]
    have e2 : U * M.tr = rotMat n w := by rw [← e, mul_assoc', hM.2.1, mul_one']
    unfold magnitude
    rw [e2, trace_rotMat hn]
    have : (1 + 2 * Real.cos w - 1) / 2 = Real.cos w := by ring
    rw [this, ← Real.cos_abs]
    by_cases hw : |w| ≤ Real.pi
    · rw [Real.arccos_cos (abs_nonneg w) hw]
    · exact (Real.arccos_le_pi _).trans (not_le.mp hw).le

/-- C83: the misorientation reported for an element is the smallest angle of a rotation taking the mean orientation into the orientation
of that element: some rotation by this angle does it, none by a smaller angle does. -/
theorem C83_smallest_angle (lib : RotLib) (Us : List M3) (hU : ∀ U ∈ Us, IsRot U) (hM : IsRot (lib.mean Us)) :
    (misorientations lib Us).length = Us.length ∧
    ∀ (i : ℕ) (U : M3), Us[i]? = some U → ∃ θ, (misorientations lib Us)[i]? = some θ ∧ SmallestAngle (lib.mean Us) U θ := by
  unfold misorientations
  refine ⟨List.length_map _, fun i U h => ⟨_, ?_, smallestAngle_magnitude hM (hU U (List.mem_of_getElem? h))⟩⟩
  rw [List.getElem?_map, h]; rfl

theorem magnitude_eq_zero {M U : M3} (hM : IsRot M) (hU : IsRot U) : magnitude (U * M.tr) = 0 ↔ U = M := by
  have hR : IsRot (U * M.tr) := isRot_mul hU (isRot_tr hM)
  unfold magnitude
  rw [Real.arccos_eq_zero]
  constructor
  · intro h
    have h1 := (IsRot.trace_range hR).2
    have := rot_eq_one hR (by linarith)
    calc U = U * M.tr * M := by rw [mul_assoc', hM.1, mul_one']
      _ = M := by rw [this, one_mul']
  · rintro rfl
    rw [hM.2.1]
    norm_num [M3.trace]

/-- C83: the misorientation of an element is zero exactly when it has the mean orientation. -/
theorem C83_zero_iff_mean (lib : RotLib) (Us : List M3) (hU : ∀ U ∈ Us, IsRot U) (hM : IsRot (lib.mean Us)) (i : ℕ) (U : M3)
    (h : Us[i]? = some U) : (misorientations lib Us)[i]? = some 0 ↔ U = lib.mean Us := by
  unfold misorientations
  rw [List.getElem?_map, h, Option.map_some, Option.some.injEq]
  exact magnitude_eq_zero hM (hU U (List.mem_of_getElem? h))

theorem entryDist_nonneg (A B : M3) : 0 ≤ entryDist A B := by
  unfold entryDist
  have := nsq_nonneg (A.r0 - B.r0)
  have := nsq_nonneg (A.r1 - B.r1)
  have := nsq_nonneg (A.r2 - B.r2)
  linarith

theorem entryDist_eq_zero {A B : M3} (h : entryDist A B = 0) : A = B := by
  unfold entryDist at h
  have h0 := nsq_nonneg (A.r0 - B.r0)
  have h1 := nsq_nonneg (A.r1 - B.r1)
  have h2 := nsq_nonneg (A.r2 - B.r2)
  have e0 := sub_eq_zero.mp (nsq_eq_zero.mp (by linarith : nsq (A.r0 - B.r0) = 0))
  have e1 := sub_eq_zero.mp (nsq_eq_zero.mp (by linarith : nsq (A.r1 - B.r1) = 0))
  have e2 := sub_eq_zero.mp (nsq_eq_zero.mp (by linarith : nsq (A.r2 - B.r2) = 0))
  exact M3.ext e0 e1 e2

theorem entryDist_self (A : M3) : entryDist A A = 0 := by
  unfold entryDist; simp [nsq, V3.dot]

theorem entryDist_turn {Q : M3} (hQ : IsRot Q) (A B : M3) : entryDist (Q * A) (Q * B) = entryDist A B := by
  obtain ⟨-, -, ⟨k1, k2, k3⟩, m1, m2, m3⟩ := IsRot.entries hQ
  unfold entryDist
  simp only [mul_r0, mul_r1, mul_r2, vecMul, nsq, V3.dot, sub_x, sub_y, sub_z]
  linear_combination
    ((A.r0.x - B.r0.x) ^ 2 + (A.r0.y - B.r0.y) ^ 2 + (A.r0.z - B.r0.z) ^ 2) * m1 +
    ((A.r1.x - B.r1.x) ^ 2 + (A.r1.y - B.r1.y) ^ 2 + (A.r1.z - B.r1.z) ^ 2) * m2 +
    ((A.r2.x - B.r2.x) ^ 2 + (A.r2.y - B.r2.y) ^ 2 + (A.r2.z - B.r2.z) ^ 2) * m3 +
    2 * ((A.r0.x - B.r0.x) * (A.r1.x - B.r1.x) + (A.r0.y - B.r0.y) * (A.r1.y - B.r1.y) + (A.r0.z - B.r0.z) * (A.r1.z - B.r1.z)) * k1 +
    2 * ((A.r0.x - B.r0.x) * (A.r2.x - B.r2.x) + (A.r0.y - B.r0.y) * (A.r2.y - B.r2.y) + (A.r0.z - B.r0.z) * (A.r2.z - B.r2.z)) * k2 +
    2 * ((A.r1.x - B.r1.x) * (A.r2.x - B.r2.x) + (A.r1.y - B.r1.y) * (A.r2.y - B.r2.y) + (A.r1.z - B.r1.z) * (A.r2.z - B.r2.z)) * k3

/-- C83: in a single crystal, where all elements have the same orientation, all misorientations are zero. -/
theorem C83_single_crystal (lib : RotLib) (n : ℕ) (U : M3) (hU : IsRot U) (hM : BestMean (List.replicate n U) (lib.mean (List.replicate n U))) :
    misorientations lib (List.replicate n U) = List.replicate n 0 := by
  cases n with
  | zero => rfl
  | succ n =>
    have h := hM.2 U hU
    simp only [List.map_replicate, List.sum_replicate, entryDist_self, smul_zero, nsmul_eq_mul] at h
    have h0 := entryDist_nonneg U (lib.mean (List.replicate (n + 1) U))
    have hp : (0 : ℝ) < ((n + 1 : ℕ) : ℝ) := by positivity
    have hz : entryDist U (lib.mean (List.replicate (n + 1) U)) = 0 := by nlinarith
    have e := entryDist_eq_zero hz
    unfold misorientations
    rw [List.map_replicate]
    congr 1
    exact (magnitude_eq_zero hM.1 hU).mpr e

/-- C83: turning the whole sample does not change its misorientations (when its mean orientation is unique). -/
theorem C83_turned_sample (lib : RotLib) (Us : List M3) (Q : M3) (hQ : IsRot Q)
    (hM : BestMean Us (lib.mean Us)) (hM' : BestMean (Us.map (Q * ·)) (lib.mean (Us.map (Q * ·))))
    (huniq : ∀ M, BestMean Us M → M = lib.mean Us) :
    misorientations lib (Us.map (Q * ·)) = misorientations lib Us := by
  have hsum : ∀ M, ((Us.map (Q * ·)).map fun U => entryDist U (Q * M)).sum = (Us.map fun U => entryDist U M).sum := by
    intro M
    rw [List.map_map]
    congr 1
    exact List.map_congr_left fun U _ => entryDist_turn hQ U M
  have hback : ∀ M, Q * (Q.tr * M) = M := fun M => by rw [← mul_assoc', hQ.2.1, one_mul']
  have hb : BestMean Us (Q.tr * lib.mean (Us.map (Q * ·))) := by
    refine ⟨isRot_mul (isRot_tr hQ) hM'.1, fun P hP => ?_⟩
    rw [← hsum, ← hsum, hback]
    exact hM'.2 _ (isRot_mul hQ hP)
  have e := huniq _ hb
  have e' : lib.mean (Us.map (Q * ·)) = Q * lib.mean Us := by rw [← e, hback]
  unfold misorientations
  dsimp only
  rw [e', List.map_map]
  refine List.map_congr_left fun U _ => ?_
  show magnitude (Q * U * (Q * lib.mean Us).tr) = _
  have : Q * U * (Q * lib.mean Us).tr = Q * (U * (lib.mean Us).tr) * Q.tr := by rw [tr_mul]; simp only [mul_assoc']
  unfold magnitude
  rw [this]
  have ht : ∀ A : M3, (Q * A * Q.tr).trace = A.trace := by
    intro A
    obtain ⟨-, -, ⟨k1, k2, k3⟩, m1, m2, m3⟩ := IsRot.entries hQ
    unfold M3.trace
    simp only [mul_r0, mul_r1, mul_r2, vecMul, M3.tr]
    linear_combination A.r0.x * m1 + A.r1.y * m2 + A.r2.z * m3 + (A.r0.y + A.r1.x) * k1 + (A.r0.z + A.r2.x) * k2 + (A.r1.z + A.r2.y) * k3
  rw [ht]

/-! ### a concrete sample -/

/-- a library whose mean is right for two grains turned by `0` and `1` radian about the z axis -/
noncomputable def halfLib : RotLib := ⟨fun _ => rotMat ⟨0, 0, 1⟩ (1 / 2), fun _ => (0, 0, 0)⟩

theorem unit_z : nsq (⟨0, 0, 1⟩ : V3) = 1 := by simp [nsq, V3.dot]

/-- two grains one radian apart are each half a radian from their mean -/
example : misorientations halfLib [1, rotMat ⟨0, 0, 1⟩ 1] = [1 / 2, 1 / 2] := by
  have hpi : (1 : ℝ) / 2 ≤ Real.pi := by linarith [Real.two_le_pi]
  have e1 : (1 : M3) * (rotMat ⟨0, 0, 1⟩ (1 / 2)).tr = rotMat ⟨0, 0, 1⟩ (-(1 / 2)) := by rw [one_mul', rotMat_neg_angle]
  have e2 : rotMat ⟨0, 0, 1⟩ 1 * (rotMat ⟨0, 0, 1⟩ (1 / 2)).tr = rotMat ⟨0, 0, 1⟩ (1 / 2) := by
    rw [← rotMat_neg_angle, rotMat_mul unit_z]; norm_num
  have a : ∀ w : ℝ, magnitude (rotMat ⟨0, 0, 1⟩ w) = Real.arccos (Real.cos w) := by
    intro w
    unfold magnitude
    rw [trace_rotMat unit_z]
    congr 1; ring
  simp only [misorientations, halfLib, List.map_cons, List.map_nil, e1, e2, a, Real.cos_neg, Real.arccos_cos (by norm_num : (0:ℝ) ≤ 1 / 2) hpi]

/-- the mean rotation used there really is the mean: no rotation has a smaller sum of squared distances -/
theorem half_bestMean : BestMean [1, rotMat ⟨0, 0, 1⟩ 1] (halfLib.mean [1, rotMat ⟨0, 0, 1⟩ 1]) := by
  refine ⟨rotMat_isRot unit_z _, fun Q hQ => ?_⟩
  obtain ⟨⟨n1, n2, n3⟩, -, -, m1, m2, m3⟩ := IsRot.entries hQ
  obtain ⟨-, -, -, -, -, -, -, -, c9⟩ := IsRot.cofactors hQ
  have hh : Real.cos (1 / 2) ^ 2 + Real.sin (1 / 2) ^ 2 = 1 := Real.cos_sq_add_sin_sq _
  have hc1 : Real.cos 1 = 2 * Real.cos (1 / 2) ^ 2 - 1 := by rw [← Real.cos_two_mul]; norm_num
  have hs1 : Real.sin 1 = 2 * Real.sin (1 / 2) * Real.cos (1 / 2) := by rw [← Real.sin_two_mul]; norm_num
  have hpos : 0 < Real.cos (1 / 2) := Real.cos_pos_of_mem_Ioo ⟨by linarith [Real.pi_pos], by linarith [Real.two_le_pi]⟩
  set ch := Real.cos (1 / 2)
  set sh := Real.sin (1 / 2)
  have hq : Q.r2.z ≤ 1 := by nlinarith only [n3, mul_self_nonneg Q.r2.x, mul_self_nonneg Q.r2.y]
  have hid : (Q.r0.x + Q.r1.y) ^ 2 + (Q.r1.x - Q.r0.y) ^ 2 = (1 + Q.r2.z) ^ 2 := by
    linear_combination n1 + n2 - m3 - 2 * c9
  have hq' : -1 ≤ Q.r2.z := by nlinarith only [n3, mul_self_nonneg Q.r2.x, mul_self_nonneg Q.r2.y]
  have hcs : (Q.r0.x + Q.r1.y) * ch + (Q.r1.x - Q.r0.y) * sh ≤ 1 + Q.r2.z := by
    have : ((Q.r0.x + Q.r1.y) * ch + (Q.r1.x - Q.r0.y) * sh) ^ 2 ≤ (1 + Q.r2.z) ^ 2 := by
      nlinarith only [hid, hh, sq_nonneg ((Q.r0.x + Q.r1.y) * sh - (Q.r1.x - Q.r0.y) * ch)]
    exact (abs_le.mp (abs_le_of_sq_le_sq this (by linarith))).2
  have e : ∀ P : M3, IsRot P → ([1, rotMat ⟨0, 0, 1⟩ 1].map fun U => entryDist U P).sum
      = 12 - 4 * (ch * ((P.r0.x + P.r1.y) * ch + (P.r1.x - P.r0.y) * sh) + P.r2.z) := by
    intro P hP
    obtain ⟨⟨n1, n2, n3⟩, -, -, m1, m2, m3⟩ := IsRot.entries hP
    rw [rotMat_entries unit_z]
    simp only [List.map_cons, List.map_nil, List.sum_cons, List.sum_nil, entryDist, one_r0, one_r1, one_r2, nsq, V3.dot, sub_x, sub_y, sub_z]
    rw [hc1, hs1]
    linear_combination 2 * n1 + 2 * n2 + 2 * n3 + (8 * ch ^ 2) * hh
  rw [e Q hQ, e (halfLib.mean [1, rotMat ⟨0, 0, 1⟩ 1]) (rotMat_isRot unit_z _)]
  show 12 - 4 * (ch * (((rotMat ⟨0, 0, 1⟩ (1 / 2)).r0.x + (rotMat ⟨0, 0, 1⟩ (1 / 2)).r1.y) * ch +
    ((rotMat ⟨0, 0, 1⟩ (1 / 2)).r1.x - (rotMat ⟨0, 0, 1⟩ (1 / 2)).r0.y) * sh) + (rotMat ⟨0, 0, 1⟩ (1 / 2)).r2.z) ≤ _
  rw [rotMat_entries unit_z]
  dsimp only
  show 12 - 4 * (ch * ((ch + (1 - ch) * (0 * 0) + (ch + (1 - ch) * (0 * 0))) * ch +
    ((1 - ch) * (0 * 0) + sh * 1 - ((1 - ch) * (0 * 0) - sh * 1)) * sh) + (ch + (1 - ch) * (1 * 1))) ≤ _
  nlinarith [mul_le_mul_of_nonneg_left hcs hpos.le]

/-- a sample of one grain has a unique mean, and it is turned with the grain -/
example (U Q : M3) (hU : IsRot U) (hQ : IsRot Q) : ∃ lib : RotLib, BestMean [U] (lib.mean [U]) ∧
    BestMean ([U].map (Q * ·)) (lib.mean ([U].map (Q * ·))) ∧ ∀ M, BestMean [U] M → M = lib.mean [U] := by
  have best : ∀ U, IsRot U → BestMean [U] U := by
    intro U hU
    refine ⟨hU, fun P _ => ?_⟩
    simp only [List.map_cons, List.map_nil, List.sum_cons, List.sum_nil, entryDist_self, add_zero]
    exact entryDist_nonneg U P
  refine ⟨⟨fun l => l.headD 1, fun _ => (0, 0, 0)⟩, best U hU, best (Q * U) (isRot_mul hQ hU), fun M hM => ?_⟩
  have h := hM.2 U hU
  simp only [List.map_cons, List.map_nil, List.sum_cons, List.sum_nil, entryDist_self, add_zero] at h
  exact (entryDist_eq_zero (le_antisymm h (entryDist_nonneg U M))).symm

end XRD
