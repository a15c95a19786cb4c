import Verif.Lemmas.Strain
import Verif.Lemmas.Mesh
import Mathlib.Analysis.Matrix.PosDef

/-! Properties C19, C20, C54 and C61: strain and lattice matrices. -/

namespace XRD.Spec
open XRD V3 M3
/-- symmetric tensor -/
def Symmetric (e : M3) : Prop := e.tr = e
/-- `I + 2e` is positive definite -/
def Feasible (e : M3) : Prop := ∀ v : V3, v ≠ 0 → 0 < nsq v + 2 * dot v (e.mulVec v)
/-- some direction would get a negative squared length -/
def Inverting (e : M3) : Prop := ∃ v : V3, nsq v + 2 * dot v (e.mulVec v) < 0
/-- zero below the diagonal -/
def UpperTriangular (m : M3) : Prop := m.r1.x = 0 ∧ m.r2.x = 0 ∧ m.r2.y = 0
/-- the components `xx, xy, xz, yy, yz, zz` -/
def sixComponents (e : M3) : List ℝ := [e.r0.x, e.r0.y, e.r0.z, e.r1.y, e.r1.z, e.r2.z]
end XRD.Spec

namespace XRD
open V3 M3

theorem symL_of_symm {c : M3} (h : c.tr = c) : symL c = c := by
  have h' := h
  rw [M3.ext_iff] at h'
  obtain ⟨h0, h1, h2⟩ := h'
  have a := congrArg V3.y h0; have b := congrArg V3.z h0; have d := congrArg V3.z h1
  simp [tr] at a b d
  ext <;> simp [symL] <;> assumption

theorem strainC_symm {e : M3} (h : Spec.Symmetric e) : (strainC e).tr = strainC e := by
  unfold Spec.Symmetric at h
  have h' := h
  rw [M3.ext_iff] at h'
  obtain ⟨h0, h1, h2⟩ := h'
  have a := congrArg V3.y h0; have b := congrArg V3.z h0; have d := congrArg V3.z h1
  simp [tr] at a b d
  ext <;> simp [strainC, tr, a, b, d]

theorem quad_strainC (e : M3) (v : V3) : v.dot ((strainC e).mulVec v) = nsq v + 2 * dot v (e.mulVec v) := by
  simp [strainC, mulVec, V3.dot, nsq]; ring

theorem feasible_iff_cholesky {e : M3} (h : Spec.Symmetric e) : Spec.Feasible e ↔ ∃ L, cholesky (strainC e) = .ok L := by
  rw [cholesky_ok_iff, symL_of_symm (strainC_symm h)]
  simp only [quad_strainC]; rfl

theorem feasible_no_neg {e : M3} (h : Spec.Symmetric e) (hf : Spec.Feasible e) : ¬ hasNegEigenvalue (strainC e) := by
  rintro ⟨l, hl, v, hv, he⟩
  rw [symL_of_symm (strainC_symm h)] at he
  have := hf v hv
  rw [← quad_strainC, he] at this
  have e2 : v.dot (l • v) = l * nsq v := by simp [V3.dot, nsq]; ring
  rw [e2] at this
  nlinarith [nsq_nonneg v]

theorem epsilonToB_of_feasible {e : M3} (h : Spec.Symmetric e) (hf : Spec.Feasible e) (B0 : M3) :
    ∃ L, cholesky (strainC e) = .ok L ∧ epsilonToB e B0 = .ok (L.tr.inv * B0) := by
  obtain ⟨L, hL⟩ := (feasible_iff_cholesky h).mp hf
  refine ⟨L, hL, ?_⟩
  unfold epsilonToB bOfStrain
  rw [if_neg (feasible_no_neg h hf), hL]

theorem chol_det_ne {c L : M3} (h : cholesky c = .ok L) : L.det ≠ 0 := by
  obtain ⟨-, h1, h2, h3, p1, p2, p3⟩ := cholesky_spec h
  rw [tri_det h1 h2 h3]; positivity

theorem inv_mul_rev {a b : M3} (ha : a.det ≠ 0) (hb : b.det ≠ 0) : (a * b).inv = b.inv * a.inv := by
  apply M3.inv_unique
  · rw [det_mul]; exact mul_ne_zero ha hb
  · rw [mul_assoc', ← mul_assoc' a.inv, inv_mul ha, one_mul', inv_mul hb]

theorem inv_inv' {a : M3} (ha : a.det ≠ 0) : a.inv.inv = a := by
  apply M3.inv_unique
  · rw [det_inv ha]; exact one_div_ne_zero ha
  · exact mul_inv ha

/-- inverse of an upper triangular matrix is upper triangular -/
theorem inv_upper {a : M3} (h : Spec.UpperTriangular a) : Spec.UpperTriangular a.inv := by
  obtain ⟨h1, h2, h3⟩ := h
  refine ⟨?_, ?_, ?_⟩ <;> simp [inv, h1, h2, h3]

theorem mul_upper {a b : M3} (ha : Spec.UpperTriangular a) (hb : Spec.UpperTriangular b) : Spec.UpperTriangular (a * b) := by
  obtain ⟨h1, h2, h3⟩ := ha
  obtain ⟨k1, k2, k3⟩ := hb
  refine ⟨?_, ?_, ?_⟩ <;> simp [vecMul, h1, h2, h3, k1, k2, k3]

/-! ### C19 -/

/-- C19: a feasible symmetric strain is accepted, converted to a lattice matrix and recovered from it exactly; an upper
triangular reference gives an upper triangular lattice matrix. -/
theorem C19_strain_round_trip (e B0 : M3) (hs : Spec.Symmetric e) (hf : Spec.Feasible e) (hB : B0.det ≠ 0) :
    ∃ B, epsilonToB e B0 = .ok B ∧ bToEpsilon B B0 = Spec.sixComponents e ∧
      (Spec.UpperTriangular B0 → Spec.UpperTriangular B) := by
  obtain ⟨L, hL, he⟩ := epsilonToB_of_feasible hs hf B0
  obtain ⟨hLL, h1, h2, h3, p1, p2, p3⟩ := cholesky_spec hL
  have hd : L.tr.det ≠ 0 := by rw [det_tr]; exact chol_det_ne hL
  have hdi : L.tr.inv.det ≠ 0 := by rw [det_inv hd]; exact one_div_ne_zero hd
  refine ⟨_, he, ?_, fun hu => mul_upper (inv_upper ⟨h1, h2, h3⟩) hu⟩
  unfold bToEpsilon
  have eF : B0 * (L.tr.inv * B0).inv = L.tr := by
    rw [inv_mul_rev hdi hB, inv_inv' hd, ← mul_assoc', mul_inv hB, one_mul']
  dsimp only
  rw [eF, tr_tr, hLL, symL_of_symm (strainC_symm hs)]
  simp [strainAsVector, strainC, Spec.sixComponents]

/-- Uniqueness of the Cholesky factor. -/
theorem cholesky_unique {c L : M3} (h1 : L.r0.y = 0) (h2 : L.r0.z = 0) (h3 : L.r1.z = 0) (p1 : 0 < L.r0.x)
    (p2 : 0 < L.r1.y) (p3 : 0 < L.r2.z) (hc : L * L.tr = symL c) : cholesky c = .ok L := by
  have e := hc
  rw [M3.ext_iff, V3.ext_iff, V3.ext_iff, V3.ext_iff] at e
  simp [vecMul, tr, symL, h1, h2, h3] at e
  obtain ⟨⟨a00, a01, a02⟩, ⟨a10, a11, a12⟩, ⟨a20, a21, a22⟩⟩ := e
  have q0 : Real.sqrt c.r0.x = L.r0.x := by rw [← a00]; exact Real.sqrt_mul_self p1.le
  have e2 : cholP2 c = L.r1.y * L.r1.y := by
    unfold cholP2; rw [← a11, ← a10, ← a00]; field_simp; ring
  have q2 : Real.sqrt (cholP2 c) = L.r1.y := by rw [e2]; exact Real.sqrt_mul_self p2.le
  have eq : cholQ c = L.r2.y * L.r1.y := by
    unfold cholQ; rw [← a12, ← a10, ← a20, ← a00]; field_simp; ring
  have e3 : cholP3 c = L.r2.z * L.r2.z := by
    unfold cholP3; rw [← a22, ← a20, ← a00, eq, e2]; field_simp; ring
  have q3 : Real.sqrt (cholP3 c) = L.r2.z := by rw [e3]; exact Real.sqrt_mul_self p3.le
  unfold cholesky
  rw [if_pos (by rw [← a00]; positivity), if_pos (by rw [e2]; positivity), if_pos (by rw [e3]; positivity)]
  dsimp only
  rw [q0, q2, q3, eq, ← a10, ← a20]
  congr 1
  ext <;> simp [h1, h2, h3] <;> field_simp

/-- C19, the other direction: an upper triangular lattice matrix with positive diagonal is recovered from its strain. -/
theorem C19_lattice_round_trip (B B0 e : M3) (hB : Spec.UpperTriangular B) (hB0 : Spec.UpperTriangular B0)
    (p : 0 < B.r0.x ∧ 0 < B.r1.y ∧ 0 < B.r2.z) (p0 : 0 < B0.r0.x ∧ 0 < B0.r1.y ∧ 0 < B0.r2.z)
    (hs : Spec.Symmetric e) (he : Spec.sixComponents e = bToEpsilon B B0) : epsilonToB e B0 = .ok B := by
  obtain ⟨b1, b2, b3⟩ := hB
  have dB : B.det = B.r0.x * B.r1.y * B.r2.z := by simp [det, b1, b2, b3]; ring
  have dB' : B.det ≠ 0 := by rw [dB]; obtain ⟨p1, p2, p3⟩ := p; positivity
  have dBp : 0 < B.det := by rw [dB]; obtain ⟨p1, p2, p3⟩ := p; positivity
  obtain ⟨c1, c2, c3⟩ := hB0
  have dB0 : B0.det ≠ 0 := by
    have : B0.det = B0.r0.x * B0.r1.y * B0.r2.z := by simp [det, c1, c2, c3]; ring
    rw [this]; obtain ⟨p1, p2, p3⟩ := p0; positivity
  set F := B0 * B.inv with hF
  obtain ⟨f1, f2, f3⟩ : Spec.UpperTriangular F := mul_upper ⟨c1, c2, c3⟩ (inv_upper ⟨b1, b2, b3⟩)
  have ex : F.r0.x = B0.r0.x * (1 / B.det * (B.r1.y * B.r2.z)) := by
    simp [hF, vecMul, inv, b1, b2, b3]
  have ey : F.r1.y = B0.r1.y * (1 / B.det * (B.r0.x * B.r2.z)) := by
    simp [hF, vecMul, inv, b1, b2, b3, c1]
  have ez : F.r2.z = B0.r2.z * (1 / B.det * (B.r0.x * B.r1.y)) := by
    simp [hF, vecMul, inv, b1, b2, b3, c2, c3]
  obtain ⟨p1, p2, p3⟩ := p
  obtain ⟨p4, p5, p6⟩ := p0
  have fx : 0 < F.r0.x := by rw [ex]; positivity
  have fy : 0 < F.r1.y := by rw [ey]; positivity
  have fz : 0 < F.r2.z := by rw [ez]; positivity
  have hC : strainC e = F.tr * F := by
    have he' := he
    unfold bToEpsilon at he'
    rw [← hF] at he'
    simp only [Spec.sixComponents, strainAsVector, List.cons.injEq, and_true] at he'
    obtain ⟨g1, g2, g3, g4, g5, g6⟩ := he'
    have hs' := hs
    unfold Spec.Symmetric at hs'
    rw [M3.ext_iff] at hs'
    obtain ⟨s0, s1, s2⟩ := hs'
    have a := congrArg V3.y s0; have b := congrArg V3.z s0; have d := congrArg V3.z s1
    simp [tr] at a b d
    simp [vecMul, tr, f1, f2, f3] at g1 g2 g3 g4 g5 g6
    ext <;> simp [strainC, vecMul, tr, f1, f2, f3, a, b, d] <;> (try rw [← b]) <;> (try rw [← d]) <;> (try rw [← a]) <;> linarith
  have hsym := symL_of_symm (strainC_symm hs)
  have hL : cholesky (strainC e) = .ok F.tr := by
    apply cholesky_unique
    · exact f1
    · exact f2
    · exact f3
    · exact fx
    · exact fy
    · exact fz
    · rw [hsym, tr_tr, hC]
  have hfe : Spec.Feasible e := (feasible_iff_cholesky hs).mpr ⟨_, hL⟩
  unfold epsilonToB bOfStrain
  rw [if_neg (feasible_no_neg hs hfe), hL]
  dsimp only
  rw [tr_tr, hF, inv_mul_rev dB0 (by rw [det_inv dB']; exact one_div_ne_zero dB'), inv_inv' dB', mul_assoc',
    inv_mul dB0, mul_one']

/-! ### C20 -/

/-- C20: a single symmetric strain is accepted exactly when `I + 2·strain` is positive definite. -/
theorem C20_accepted_iff_feasible (e B0 : M3) (hs : Spec.Symmetric e) :
    (∃ B, epsilonToB e B0 = .ok B) ↔ Spec.Feasible e := by
  constructor
  · rintro ⟨B, h⟩
    unfold epsilonToB bOfStrain at h
    split_ifs at h
    split at h
    · cases h
    · rename_i L hL
      exact (feasible_iff_cholesky hs).mpr ⟨L, hL⟩
  · intro h
    obtain ⟨L, -, h'⟩ := epsilonToB_of_feasible hs h B0
    exact ⟨_, h'⟩

/-- the matrix in Mathlib's type -/
def toMat (m : M3) : Matrix (Fin 3) (Fin 3) ℝ := !![m.r0.x, m.r0.y, m.r0.z; m.r1.x, m.r1.y, m.r1.z; m.r2.x, m.r2.y, m.r2.z]

/-- spectral theorem for the 3x3 case: a symmetric matrix with a negative direction has a negative eigenvalue -/
theorem neg_eigen_of_neg_direction {c : M3} (hc : c.tr = c) (v : V3) (hv : v.dot (c.mulVec v) < 0) : hasNegEigenvalue c := by
  rw [hasNegEigenvalue, symL_of_symm hc]
  have hH : (toMat c).IsHermitian := by
    rw [M3.ext_iff] at hc
    obtain ⟨h0, h1, h2⟩ := hc
    have a := congrArg V3.y h0; have b := congrArg V3.z h0; have d := congrArg V3.z h1
    simp [tr] at a b d
    rw [Matrix.IsHermitian]
    ext i j
    fin_cases i <;> fin_cases j <;> simp [toMat, a, b, d]
  have hn : ¬ (toMat c).PosSemidef := by
    intro hp
    have := hp.dotProduct_mulVec_nonneg ![v.x, v.y, v.z]
    simp [toMat, Matrix.mulVec, dotProduct, Fin.sum_univ_three] at this
    simp [mulVec, V3.dot] at hv
    linarith
  rw [hH.posSemidef_iff_eigenvalues_nonneg] at hn
  rw [Pi.le_def] at hn
  push Not at hn
  obtain ⟨i, hi⟩ := hn
  have hb := hH.mulVec_eigenvectorBasis i
  have hne : (hH.eigenvectorBasis i) ≠ 0 := by
    intro h
    have h1 := hH.eigenvectorBasis.orthonormal.1 i
    rw [h] at h1; simp at h1
  set w := hH.eigenvectorBasis i with hw
  refine ⟨hH.eigenvalues i, hi, ⟨w 0, w 1, w 2⟩, ?_, ?_⟩
  · intro h0
    apply hne
    have := V3.ext_iff.mp h0
    simp at this
    ext k
    fin_cases k
    · exact this.1
    · exact this.2.1
    · exact this.2.2
  · have b0 := congrFun hb 0
    have b1 := congrFun hb 1
    have b2 := congrFun hb 2
    simp [toMat, Matrix.mulVec, dotProduct, Fin.sum_univ_three] at b0 b1 b2
    ext <;> simp [mulVec, V3.dot]
    · exact b0
    · exact b1
    · exact b2

theorem crystal_symm {e U : M3} (h : Spec.Symmetric e) : Spec.Symmetric (U.tr * (e * U)) := by
  unfold Spec.Symmetric at *
  rw [tr_mul, tr_mul, tr_tr, h, mul_assoc']

theorem quad_conj {e U : M3} (hU : IsRot U) (v : V3) :
    nsq (U.tr.mulVec v) + 2 * dot (U.tr.mulVec v) ((U.tr * (e * U)).mulVec (U.tr.mulVec v))
      = nsq v + 2 * dot v (e.mulVec v) := by
  have h1 : nsq (U.tr.mulVec v) = nsq v := by
    apply M3.IsRot.nsq_mulVec; rw [tr_tr]; exact hU.2.1
  have h2 : (U.tr * (e * U)).mulVec (U.tr.mulVec v) = U.tr.mulVec (e.mulVec v) := by
    rw [mulVec_mul, mulVec_mul, ← mulVec_mul U, hU.2.1, one_mulVec]
  rw [h1, h2, M3.IsRot.dot_mulVec (by rw [tr_tr]; exact hU.2.1)]

/-- C20 (partial): for three or more elements of a phase, a strain that inverts some direction raises `ValueError`.
Missing: fewer than three elements, and strains with a zero but no negative eigenvalue of `I + 2·strain`, see
`C20_infeasible_raises_valueError_fails`. -/
theorem C20_infeasible_raises_valueError_partial (pairs : List (M3 × M3)) (B0 : M3)
    (hs : ∀ p ∈ pairs, Spec.Symmetric p.1) (hU : ∀ p ∈ pairs, IsRot p.2) (hn : 3 ≤ pairs.length)
    (hinv : ∃ p ∈ pairs, Spec.Inverting p.1) : labStrainToB pairs B0 = .error .valueError := by
  obtain ⟨p, hp, v, hv⟩ := hinv
  unfold labStrainToB epsilonToBBatch
  rw [if_pos, if_neg (by simpa using hn)]
  refine ⟨_, List.mem_map.mpr ⟨p, hp, rfl⟩, ?_⟩
  apply neg_eigen_of_neg_direction (strainC_symm (crystal_symm (hs p hp))) (p.2.tr.mulVec v)
  rw [quad_strainC, quad_conj (hU p hp)]
  exact hv

/-- C20: strains of rotated crystals are accepted exactly when every element's strain is feasible. -/
theorem C20_batch_accepted_iff_feasible (pairs : List (M3 × M3)) (B0 : M3)
    (hs : ∀ p ∈ pairs, Spec.Symmetric p.1) (hU : ∀ p ∈ pairs, IsRot p.2) :
    (∃ Bs, labStrainToB pairs B0 = .ok Bs) ↔ ∀ p ∈ pairs, Spec.Feasible p.1 := by
  have hfe : ∀ p ∈ pairs, (Spec.Feasible (p.2.tr * (p.1 * p.2)) ↔ Spec.Feasible p.1) := by
    intro p hp
    constructor
    · intro h v hv
      rw [← quad_conj (hU p hp)]
      apply h
      intro h0; apply hv
      have := congrArg p.2.mulVec h0
      rwa [← mulVec_mul, (hU p hp).2.1, one_mulVec, mulVec_zero] at this
    · intro h v hv
      have e : v = p.2.tr.mulVec (p.2.mulVec v) := by rw [← mulVec_mul, (hU p hp).1, one_mulVec]
      rw [e, quad_conj (hU p hp)]
      apply h
      intro h0; apply hv; rw [e, h0, mulVec_zero]
  constructor
  · rintro ⟨Bs, h⟩ p hp
    unfold labStrainToB epsilonToBBatch at h
    split_ifs at h
    obtain ⟨hl, hh⟩ := batch_ok h
    obtain ⟨i, hi, rfl⟩ := List.getElem_of_mem hp
    have hb := hh i (by simpa using hi) (by rw [hl]; simpa using hi)
    rw [← hfe _ hp, feasible_iff_cholesky (crystal_symm (hs _ hp))]
    simp only [List.getElem_map] at hb
    unfold bOfStrain at hb
    split at hb
    · cases hb
    · rename_i L hL; exact ⟨L, hL⟩
  · intro h
    unfold labStrainToB epsilonToBBatch
    rw [if_neg]
    · apply batch_of_all
      intro e he
      obtain ⟨p, hp, rfl⟩ := List.mem_map.mp he
      obtain ⟨L, hL⟩ := (feasible_iff_cholesky (crystal_symm (hs _ hp))).mp ((hfe p hp).mpr (h p hp))
      unfold bOfStrain; rw [hL]; exact ⟨_, rfl⟩
    · rintro ⟨e, he, hn⟩
      obtain ⟨p, hp, rfl⟩ := List.mem_map.mp he
      exact feasible_no_neg (crystal_symm (hs p hp)) ((hfe p hp).mpr (h p hp)) hn

/-- the strain `-1` in every direction -/
def crushed : M3 := ⟨⟨-1, 0, 0⟩, ⟨0, -1, 0⟩, ⟨0, 0, -1⟩⟩
/-- the strain `-1/2` in every direction -/
noncomputable def flattened : M3 := ⟨⟨-(1 / 2), 0, 0⟩, ⟨0, -(1 / 2), 0⟩, ⟨0, 0, -(1 / 2)⟩⟩

/-- C20 is false in general: an infeasible strain on a single element raises `IndexError`, and a strain of exactly `-1/2`
raises the `RuntimeError` of the factorisation. -/
theorem C20_infeasible_raises_valueError_fails :
    (Spec.Symmetric crushed ∧ Spec.Inverting crushed ∧ labStrainToB [(crushed, 1)] 1 = .error .indexError) ∧
    (Spec.Symmetric flattened ∧ ¬ Spec.Feasible flattened ∧
      labStrainToB [(flattened, 1), (flattened, 1), (flattened, 1)] 1 = .error .runtimeError) := by
  have s1 : Spec.Symmetric crushed := rfl
  have i1 : nsq (⟨1, 0, 0⟩ : V3) + 2 * dot ⟨1, 0, 0⟩ (crushed.mulVec ⟨1, 0, 0⟩) < 0 := by
    simp [nsq, V3.dot, crushed, mulVec]
  refine ⟨⟨s1, ⟨_, i1⟩, ?_⟩, rfl, ?_, ?_⟩
  · unfold labStrainToB epsilonToBBatch
    rw [if_pos, if_pos (by simp)]
    refine ⟨_, List.mem_map.mpr ⟨_, List.mem_singleton.mpr rfl, rfl⟩, ?_⟩
    apply neg_eigen_of_neg_direction (v := ⟨1, 0, 0⟩)
    · apply strainC_symm; exact crystal_symm (U := 1) s1
    · rw [quad_strainC, tr_one, one_mul', mul_one']; exact i1
  · intro h
    have := h ⟨1, 0, 0⟩ (by intro h'; simpa using congrArg V3.x h')
    simp [nsq, V3.dot, flattened, mulVec] at this
  · have e0 : strainC flattened = 0 := by
      ext <;> simp [strainC, flattened]
    have e1 : (1 : M3).tr * (flattened * 1) = flattened := by rw [tr_one, one_mul', mul_one']
    have hb : bOfStrain flattened 1 = .error .runtimeError := by
      unfold bOfStrain cholesky; rw [e0]; simp
    unfold labStrainToB epsilonToBBatch
    rw [if_neg]
    · simp only [List.map, e1, batch, hb]
    · rintro ⟨e, he, l, hl, v, hv, h⟩
      simp only [List.map, e1, List.mem_cons, List.not_mem_nil, or_false, or_self] at he
      rw [he, e0] at h
      apply hv
      have hz : (symL 0).mulVec v = 0 := by ext <;> simp [symL, mulVec, V3.dot]
      rw [hz] at h
      have hx := congrArg V3.x h; have hy := congrArg V3.y h; have hz := congrArg V3.z h
      simp [hl.ne] at hx hy hz
      ext <;> simp [hx, hy, hz]

/-! ### C54 -/

/-- C54: the tensor of the vector of a symmetric tensor is that tensor. -/
theorem C54_tensor_of_vector (e : M3) (hs : Spec.Symmetric e) : strainAsTensor (strainAsVector e) = .ok e := by
  unfold Spec.Symmetric at hs
  rw [M3.ext_iff] at hs
  obtain ⟨h0, h1, h2⟩ := hs
  have a := congrArg V3.y h0; have b := congrArg V3.z h0; have d := congrArg V3.z h1
  simp [tr] at a b d
  simp only [strainAsVector, strainAsTensor]
  congr 1
  ext <;> simp [a, b, d]

/-- C54: the vector of the tensor of six components is those components, and the tensor is symmetric; anything but six
components is rejected. -/
theorem C54_vector_of_tensor (l : List ℝ) :
    (l.length = 6 → ∃ e, strainAsTensor l = .ok e ∧ Spec.Symmetric e ∧ strainAsVector e = l) ∧
    (l.length ≠ 6 → strainAsTensor l = .error .valueError) := by
  constructor
  · intro h
    match l, h with
    | [a, b, c, d, e, f], _ => exact ⟨_, rfl, rfl, rfl⟩
  · intro h
    match l with
    | [] => rfl
    | [_] => rfl
    | [_, _] => rfl
    | [_, _, _] => rfl
    | [_, _, _, _] => rfl
    | [_, _, _, _, _] => rfl
    | [_, _, _, _, _, _] => exact absurd rfl h
    | _ :: _ :: _ :: _ :: _ :: _ :: _ :: _ => rfl

/-! ### C61 -/

/-- real-space lattice matrix (columns are the cell edges, up to the factor `2π`) belonging to a reciprocal matrix `B` -/
noncomputable def Spec.realLattice (B : M3) : M3 := B.inv.tr

/-- C61 (partial): for a strain without shear in the crystal frame the strained real-space lattice vectors have the squared
length `|a|² + 2 a·ε a` prescribed by the (Green-Lagrange) strain, `a` the unstrained lattice vector.  Missing: strains
with shear, for which the claim is false (`C61_lattice_lengths_fails`). -/
theorem C61_lattice_lengths_partial (x y z : ℝ) (B0 B : M3) (hB0 : B0.det ≠ 0)
    (h : epsilonToB ⟨⟨x, 0, 0⟩, ⟨0, y, 0⟩, ⟨0, 0, z⟩⟩ B0 = .ok B) (n : V3) :
    nsq ((Spec.realLattice B).mulVec n) = nsq ((Spec.realLattice B0).mulVec n) +
      2 * dot ((Spec.realLattice B0).mulVec n)
        ((⟨⟨x, 0, 0⟩, ⟨0, y, 0⟩, ⟨0, 0, z⟩⟩ : M3).mulVec ((Spec.realLattice B0).mulVec n)) := by
  set e : M3 := ⟨⟨x, 0, 0⟩, ⟨0, y, 0⟩, ⟨0, 0, z⟩⟩ with he
  have hs : Spec.Symmetric e := rfl
  have hf := (C20_accepted_iff_feasible e B0 hs).mp ⟨B, h⟩
  obtain ⟨L, hL, h'⟩ := epsilonToB_of_feasible hs hf B0
  rw [h] at h'
  obtain rfl := Except.ok.inj h'
  have hd : L.tr.det ≠ 0 := by rw [det_tr]; exact chol_det_ne hL
  have hdi : L.tr.inv.det ≠ 0 := by rw [det_inv hd]; exact one_div_ne_zero hd
  obtain ⟨hLL, h1, h2, h3, p1, p2, p3⟩ := cholesky_spec hL
  rw [symL_of_symm (strainC_symm hs)] at hLL
  have hcomm : L.tr * L = strainC e := by
    rw [← hLL]
    have k := hLL
    rw [M3.ext_iff, V3.ext_iff, V3.ext_iff, V3.ext_iff] at k
    simp [vecMul, tr, strainC, he, h1, h2, h3] at k
    obtain ⟨⟨-, k1, k2⟩, ⟨-, -, k3⟩, -⟩ := k
    have l1 : L.r1.x = 0 := by rcases k1 with k | k; exact absurd k p1.ne'; exact k
    have l2 : L.r2.x = 0 := by rcases k2 with k | k; exact absurd k p1.ne'; exact k
    have l3 : L.r2.y = 0 := by
      rw [l1, zero_mul, zero_add] at k3
      rcases mul_eq_zero.mp k3 with k | k
      · exact absurd k p2.ne'
      · exact k
    ext <;> simp [vecMul, tr, h1, h2, h3, l1, l2, l3]
  unfold Spec.realLattice
  rw [inv_mul_rev hdi hB0, inv_inv' hd, tr_mul, tr_tr]
  generalize B0.inv.tr = A
  rw [mulVec_mul, ← quad_strainC, ← hcomm, mulVec_mul, M3.dot_mulVec, tr_tr]
  rfl

/-- C61 is false in general: for a shear strain the squared length of a strained lattice vector is not the prescribed
one. -/
theorem C61_lattice_lengths_fails :
    ∃ (e B : M3) (n : V3), Spec.Symmetric e ∧ Spec.Feasible e ∧ epsilonToB e 1 = .ok B ∧
      nsq ((Spec.realLattice B).mulVec n) ≠ nsq n + 2 * dot n (e.mulVec n) := by
  -- `I + 2 e = [[1, 1/2, 0], [1/2, 5/4, 0], [0, 0, 1]] = L Lᵀ` with `L = [[1,0,0],[1/2,1,0],[0,0,1]]`
  set e : M3 := ⟨⟨0, 1 / 4, 0⟩, ⟨1 / 4, 1 / 8, 0⟩, ⟨0, 0, 0⟩⟩ with he
  set L : M3 := ⟨⟨1, 0, 0⟩, ⟨1 / 2, 1, 0⟩, ⟨0, 0, 1⟩⟩ with hLd
  have hs : Spec.Symmetric e := rfl
  have hL : cholesky (strainC e) = .ok L := by
    apply cholesky_unique
    · rfl
    · rfl
    · rfl
    · norm_num [hLd]
    · norm_num [hLd]
    · norm_num [hLd]
    · ext <;> simp [hLd, he, vecMul, tr, symL, strainC] <;> norm_num
  have hf : Spec.Feasible e := (feasible_iff_cholesky hs).mpr ⟨_, hL⟩
  have hB : epsilonToB e 1 = .ok (L.tr.inv * 1) := by
    unfold epsilonToB bOfStrain
    rw [if_neg (feasible_no_neg hs hf), hL]
  have hd : L.tr.det ≠ 0 := by rw [det_tr]; exact chol_det_ne hL
  refine ⟨e, L.tr.inv * 1, ⟨1, 0, 0⟩, hs, hf, hB, ?_⟩
  unfold Spec.realLattice
  rw [mul_one', inv_inv' hd, tr_tr]
  simp [hLd, he, mulVec, V3.dot, nsq]

/-- a non-trivial feasible strain with shear -/
noncomputable def demoStrain : M3 := ⟨⟨1 / 100, 1 / 200, 0⟩, ⟨1 / 200, -(1 / 100), 0⟩, ⟨0, 0, 1 / 50⟩⟩

theorem demoStrain_feasible : Spec.Symmetric demoStrain ∧ Spec.Feasible demoStrain := by
  refine ⟨rfl, ?_⟩
  intro v hv
  have hpos : 0 < nsq v := lt_of_le_of_ne (nsq_nonneg v) fun h => hv (nsq_eq_zero.mp h.symm)
  simp [nsq, V3.dot, mulVec, demoStrain] at hpos ⊢
  nlinarith [sq_nonneg (v.x + v.y), sq_nonneg v.x, sq_nonneg v.y, sq_nonneg v.z]

example : Spec.Symmetric demoStrain ∧ Spec.Feasible demoStrain ∧ (1 : M3).det ≠ 0 :=
  ⟨demoStrain_feasible.1, demoStrain_feasible.2, by rw [det_one]; norm_num⟩
end XRD
