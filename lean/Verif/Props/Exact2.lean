import Verif.Props.Exact
import Verif.Props.Auto
import Verif.Props.Diffractogram
import Verif.Props.Strain
import Verif.Props.Mesh2

/-! Exact extents of partial properties, continued: C09, C15, C20, C24, C55, C61. -/

namespace XRD
open V3 M3 Fl Spec
open scoped Classical

/-! ### C09 -/

/-- the points given as rows, each shifted by `s` -/
def Spec.shiftRows (rows : List (List ℝ)) (s : V3) : List (List ℝ) := rows.map fun r => List.zipWith (· + ·) r [s.x, s.y, s.z]

/-- **C09**, exact extent for points given as rows (`(N,3)`): the documented result is returned if and only if there are exactly three
points and the three components of the shift are equal. -/
theorem C09_rows_iff (m : Motion) (t : ℝ) (h0 : 0 ≤ t) (h1 : t ≤ 1) (rows : List (List ℝ)) (hr : ∀ r ∈ rows, r.length = 3) :
    m.translate (.d2 rows) t = .ok (.d2 (Spec.shiftRows rows (t • m.translation))) ↔
      rows.length = 3 ∧ (t • m.translation).x = (t • m.translation).y ∧ (t • m.translation).y = (t • m.translation).z := by
  unfold Motion.translate Spec.shiftRows
  rw [if_pos ⟨h1, h0⟩]
  simp only
  by_cases h3 : rows.length = 3
  · rw [if_pos h3]
    obtain ⟨p, q, r, rfl⟩ := List.length_eq_three.mp h3
    obtain ⟨a1, a2, a3, rfl⟩ := List.length_eq_three.mp (hr p (by simp))
    obtain ⟨b1, b2, b3, rfl⟩ := List.length_eq_three.mp (hr q (by simp))
    obtain ⟨c1, c2, c3, rfl⟩ := List.length_eq_three.mp (hr r (by simp))
    simp only [List.zipWith_cons_cons, List.zipWith_nil_right, List.map_cons, List.map_nil, V3.smul_x, V3.smul_y, V3.smul_z,
      List.length_cons, List.length_nil, Except.ok.injEq, Tens.d2.injEq, List.cons.injEq, add_right_inj, and_true, true_and,
      _root_.mul_comm _ t]
    generalize t * m.translation.x = x
    generalize t * m.translation.y = y
    generalize t * m.translation.z = z
    constructor
    · rintro ⟨⟨h1, h2⟩, ⟨h3, h4⟩, h5, h6⟩; exact ⟨h1, h4⟩
    · rintro ⟨rfl, rfl⟩; simp
  · rw [if_neg h3]
    constructor
    · intro h
      split_ifs at h with h4
      · exfalso
        have := congrArg List.length (Tens.d2.inj (Except.ok.inj h))
        simp [h4] at this
    · rintro ⟨h, -⟩; exact absurd h h3

/-- both sides occur -/
example : ∃ rows : List (List ℝ), (∀ r ∈ rows, r.length = 3) ∧ rows.length = 3 := ⟨[[0,0,0],[1,0,0],[0,1,0]], by simp, rfl⟩

/-! ### C15 -/

/-- **C15**, exact extent: the attribute `evolumes` holds the true volumes if and only if every element lists its vertices `a b c d` with
a non-negative triple product of `b - a`, `c - a`, `d - a`. -/
theorem C15_evolumes_iff (coord : List V3) (enod : List (Q4 ℕ)) (m : TetraMesh) (hm : TetraMesh.new coord enod = .ok m) :
    m.evolumes = (elements m.coord m.enod).map tetVolume ↔
      ∀ e ∈ elements m.coord m.enod, 0 ≤ dot (cross (e.b - e.a) (e.c - e.a)) (e.d - e.a) := by
  have habs := C15_evolumes_partial coord enod m hm
  have hev : m.evolumes = (elements m.coord m.enod).map signedVolume := by
    obtain ⟨rfl, -, -⟩ := TetraMesh.new_ok hm; rfl
  rw [← habs, hev, List.map_map]
  constructor
  · intro h e he
    have h1 := List.map_inj_left.mp h e he
    simp only [Function.comp] at h1
    have : 0 ≤ signedVolume e := by rw [h1]; exact abs_nonneg _
    unfold signedVolume at this
    linarith
  · intro h
    apply List.map_congr_left
    intro e he
    have := h e he
    simp only [Function.comp]
    rw [abs_of_nonneg]
    unfold signedVolume
    linarith

/-- both outcomes occur: a mesh of one element listed either way -/
example : 0 ≤ dot (cross ((⟨1, 0, 0⟩ : V3) - 0) (⟨0, 1, 0⟩ - 0)) (⟨0, 0, 1⟩ - 0) ∧ ¬ 0 ≤ dot (cross ((⟨0, 1, 0⟩ : V3) - 0) (⟨1, 0, 0⟩ - 0)) (⟨0, 0, 1⟩ - 0) := by
  constructor <;> simp [V3.dot, V3.cross]

/-! ### C20 -/

theorem batch_error {α β : Type} {f : α → Except PyErr β} {er : PyErr} (h : ∀ a, (∃ b, f a = .ok b) ∨ f a = .error er) (l : List α) :
    (∃ bs, batch f l = .ok bs) ∨ batch f l = .error er := by
  induction l with
  | nil => exact .inl ⟨[], rfl⟩
  | cons a l ih =>
    unfold batch
    rcases h a with ⟨b, hb⟩ | hb
    · rw [hb]
      rcases ih with ⟨bs, hbs⟩ | hbs
      · rw [hbs]; exact .inl ⟨_, rfl⟩
      · rw [hbs]; exact .inr rfl
    · rw [hb]; exact .inr rfl

/-- **C20**, exact extent: which error an infeasible strain raises.  `ValueError` only if some element's strain turns a direction inside
out and the phase has at least three elements; with one or two elements the error is an `IndexError`; and strains that flatten a
direction without turning any inside out raise `RuntimeError`. -/
theorem C20_which_error (pairs : List (M3 × M3)) (B0 : M3)
    (hs : ∀ p ∈ pairs, Spec.Symmetric p.1) (hU : ∀ p ∈ pairs, IsRot p.2) (hbad : ∃ p ∈ pairs, ¬ Spec.Feasible p.1) :
    labStrainToB pairs B0 = .error (if ∃ p ∈ pairs, Spec.Inverting p.1 then (if pairs.length < 3 then .indexError else .valueError)
      else .runtimeError) := by
  by_cases hinv : ∃ p ∈ pairs, Spec.Inverting p.1
  · rw [if_pos hinv]
    obtain ⟨p, hp, v, hv⟩ := hinv
    unfold labStrainToB epsilonToBBatch
    rw [if_pos]
    · rw [List.length_map]; split_ifs <;> rfl
    · refine ⟨_, List.mem_map.mpr ⟨p, hp, rfl⟩, ?_⟩
      apply neg_eigen_of_neg_direction (strainC_symm (crystal_symm (hs p hp))) (p.2.tr.mulVec v)
      rw [quad_strainC, quad_conj (hU p hp)]
      exact hv
  · rw [if_neg hinv]
    have hno : ¬ ∃ Bs, labStrainToB pairs B0 = .ok Bs := by
      rw [C20_batch_accepted_iff_feasible pairs B0 hs hU]
      push Not
      exact hbad
    unfold labStrainToB epsilonToBBatch at hno ⊢
    rw [if_neg] at hno ⊢
    · rcases batch_error (f := fun e => bOfStrain e B0) (er := .runtimeError) (by
        intro e
        unfold bOfStrain cholesky
        split_ifs <;> simp) (pairs.map fun p => p.2.tr * (p.1 * p.2)) with h | h
      · exact absurd h hno
      · exact h
    all_goals
      rintro ⟨e, he, l, hl, v, hv, hlv⟩
      obtain ⟨p, hp, rfl⟩ := List.mem_map.mp he
      apply hinv
      refine ⟨p, hp, p.2.mulVec v, ?_⟩
      have e1 : v = p.2.tr.mulVec (p.2.mulVec v) := by rw [← mulVec_mul, (hU p hp).1, one_mulVec]
      rw [← quad_conj (hU p hp), ← e1, ← quad_strainC]
      rw [symL_of_symm (strainC_symm (crystal_symm (hs p hp)))] at hlv
      rw [hlv]
      have : 0 < nsq v := by
        rcases (show 0 ≤ nsq v by unfold nsq V3.dot; nlinarith [mul_self_nonneg v.x, mul_self_nonneg v.y, mul_self_nonneg v.z]).eq_or_lt with h | h
        · exact absurd (nsq_eq_zero.mp h.symm) hv
        · exact h
      have e2 : v.dot (l • v) = l * nsq v := by simp [V3.dot, nsq]; ring
      rw [e2]; exact mul_neg_of_neg_of_pos hl this

/-- the hypotheses of the three cases are met -/
example : Spec.Symmetric crushed ∧ ¬ Spec.Feasible crushed ∧ Spec.Inverting crushed ∧ Spec.Symmetric flattened ∧ ¬ Spec.Feasible flattened := by
  obtain ⟨⟨a, b, -⟩, c, d, -⟩ := C20_infeasible_raises_valueError_fails
  refine ⟨a, ?_, b, c, d⟩
  obtain ⟨v, hv⟩ := b
  intro h
  by_cases h0 : v = 0
  · subst h0; simp [nsq, V3.dot, mulVec] at hv
  · exact absurd (h v h0) (not_lt.mpr hv.le)

/-! ### C24 -/

/-- **C24**, exact extent: for every pair of limits the automatic image is the sum of the `macro` image of the rows with volume at least
the macro limit, the `micro` image of those between the limits and the `nano` image of those below the micro limit; every row is in at
least one of the three groups; it is in two of them, the `macro` and the `nano` one, if and only if its volume is at least the macro
limit and below the micro limit. -/
theorem C24_groups (D : Detector) (env : RenderEnv) (d : PeaksDict) (hcol : d.columns = peakColumns)
    (hlen : ∀ r ∈ d.peaks, r.length = 25) (mesh : TetraMesh) (frames : ℤ) (ml : Option ℝ) (mi : ℝ) :
    (∀ t out, D.render env d mesh frames .auto ml mi = .ok (t, out) ↔
      ∃ tma tmi tna o1 o2 o3,
        D.render env (withVolume d fun v => macroLimit D ml ≤ v) mesh frames .macro ml mi = .ok (tma, o1) ∧
        D.render env (withVolume d fun v => mi ≤ v ∧ v < macroLimit D ml) mesh frames .micro ml mi = .ok (some tmi, o2) ∧
        D.render env (withVolume d fun v => v < mi) mesh frames .nano ml mi = .ok (some tna, o3) ∧
        t = tma.map (fun tma f i j => tma f i j + tmi f i j + tna f i j) ∧ out = D.peaksIntersection d (max frames 1)) ∧
    ∀ r, (withVolume d fun v => macroLimit D ml ≤ v).peaks.count r + (withVolume d fun v => mi ≤ v ∧ v < macroLimit D ml).peaks.count r +
      (withVolume d fun v => v < mi).peaks.count r =
      if macroLimit D ml ≤ val d.columns r "volumes" ∧ val d.columns r "volumes" < mi then 2 * d.peaks.count r else d.peaks.count r := by
  refine ⟨auto_split D env d hcol hlen mesh frames ml mi, fun r => ?_⟩
  have key : ∀ p : ℝ → Prop, (withVolume d p).peaks.count r = if p (val d.columns r "volumes") then d.peaks.count r else 0 := by
    intro p
    unfold withVolume
    simp only
    split_ifs with h
    · rw [List.count_filter (by simpa using h)]
    · rw [List.count_eq_zero]
      intro hm
      rw [List.mem_filter] at hm
      exact h (by simpa using hm.2)
  rw [key, key, key]
  generalize val d.columns r "volumes" = v
  generalize macroLimit D ml = L
  generalize d.peaks.count r = n
  by_cases h1 : L ≤ v <;> by_cases h2 : v < mi
  · simp [h1, h2, not_lt.mpr h1, not_le.mpr h2]; omega
  · simp [h1, h2, not_lt.mpr h1]
  · simp [h1, h2, not_le.mpr h2]
  · simp [h1, h2, not_lt.mp h2, not_le.mp h1]

/-! ### C61 -/

/-- **C61**, exact extent: the strained lattice vectors have the prescribed squared lengths if and only if the strain has no shear
components in the crystal frame. -/
theorem C61_lattice_lengths_iff (e B0 B : M3) (hs : Spec.Symmetric e) (hB0 : B0.det ≠ 0) (h : epsilonToB e B0 = .ok B) :
    (∀ n, nsq ((Spec.realLattice B).mulVec n) = nsq ((Spec.realLattice B0).mulVec n) +
      2 * dot ((Spec.realLattice B0).mulVec n) (e.mulVec ((Spec.realLattice B0).mulVec n))) ↔
    e.r0.y = 0 ∧ e.r0.z = 0 ∧ e.r1.z = 0 := by
  constructor
  · intro hall
    have hf := (C20_accepted_iff_feasible e B0 hs).mp ⟨B, h⟩
    obtain ⟨L, hL, h'⟩ := epsilonToB_of_feasible hs hf B0
    rw [h] at h'
    obtain rfl := Except.ok.inj h'
    have hd : L.tr.det ≠ 0 := by rw [det_tr]; exact chol_det_ne hL
    have hdi : L.tr.inv.det ≠ 0 := by rw [det_inv hd]; exact one_div_ne_zero hd
    obtain ⟨hLL, h1, h2, h3, p1, p2, p3⟩ := cholesky_spec hL
    rw [symL_of_symm (strainC_symm hs)] at hLL
    have hA : ∀ u : V3, ∃ n, (Spec.realLattice B0).mulVec n = u := by
      intro u
      refine ⟨B0.tr.mulVec u, ?_⟩
      unfold Spec.realLattice
      rw [← mulVec_mul, ← tr_mul, M3.mul_inv hB0, tr_one, one_mulVec]
    have key : ∀ u : V3, nsq (L.mulVec u) = nsq (L.tr.mulVec u) := by
      intro u
      obtain ⟨n, rfl⟩ := hA u
      have := hall n
      rw [← quad_strainC, ← hLL, mulVec_mul, M3.dot_mulVec] at this
      unfold Spec.realLattice at this ⊢
      rw [inv_mul_rev hdi hB0, inv_inv' hd, tr_mul, tr_tr, mulVec_mul] at this
      exact this
    have k1 := key ⟨1, 0, 0⟩
    have k2 := key ⟨0, 1, 0⟩
    simp [nsq, V3.dot, mulVec, tr, h1, h2, h3] at k1 k2
    have l1 : L.r1.x = 0 := by nlinarith [mul_self_nonneg L.r1.x, mul_self_nonneg L.r2.x]
    have l2 : L.r2.x = 0 := by nlinarith [mul_self_nonneg L.r1.x, mul_self_nonneg L.r2.x]
    have l3 : L.r2.y = 0 := by
      rw [l1] at k2
      nlinarith [mul_self_nonneg L.r2.y]
    rw [M3.ext_iff, V3.ext_iff, V3.ext_iff, V3.ext_iff] at hLL
    simp [vecMul, tr, strainC, h1, h2, h3, l1, l2, l3] at hLL
    exact ⟨hLL.1.2.1, hLL.1.2.2, hLL.2.1.2.2⟩
  · rintro ⟨h1, h2, h3⟩ n
    have hs' := hs
    unfold Spec.Symmetric at hs'
    rw [M3.ext_iff, V3.ext_iff, V3.ext_iff, V3.ext_iff] at hs'
    simp [tr] at hs'
    have he : e = ⟨⟨e.r0.x, 0, 0⟩, ⟨0, e.r1.y, 0⟩, ⟨0, 0, e.r2.z⟩⟩ := by
      ext <;> simp [h1, h2, h3]
      · rw [hs'.1.1]; exact h1
      · rw [hs'.1.2]; exact h2
      · rw [hs'.2.1.2]; exact h3
    rw [he] at h ⊢
    exact C61_lattice_lengths_partial _ _ _ B0 B hB0 h n

end XRD

namespace XRD
open Diffractogram

/-! ### C55 -/

/-- the first of the nearest entries -/
theorem argminIdx_first (l : List ℝ) (k : ℕ) (hk : k < argminIdx l) : l.getD (argminIdx l) 0 < l.getD k 0 := by
  induction l generalizing k with
  | nil => simp [argminIdx] at hk
  | cons x t ih =>
    cases t with
    | nil => simp [argminIdx] at hk
    | cons y ys =>
      unfold argminIdx at hk ⊢
      split_ifs at hk ⊢ with h
      · omega
      · push Not at h
        cases k with
        | zero => simpa using h
        | succ k => simpa using ih k (by omega)

/-- **C55**, exact extent for non-negative patterns: the returned histogram sums to the total of the pattern if and only if every lit
pixel is at most `N - 3/2` bins away from the centre, `N` the number of bins. -/
theorem C55_total_iff (m n : ℕ) (P : ℕ → ℕ → ℝ) (hP : ∀ i j, 0 ≤ P i j) (cz cy b : ℝ) (hb : 0 < b) :
    (diffractogram m n P cz cy b).2.sum = ∑ i ∈ Finset.range m, ∑ j ∈ Finset.range n, P i j ↔
    ∀ i < m, ∀ j < n, P i j ≠ 0 →
      Real.sqrt (((i : ℝ) - cz) ^ 2 + ((j : ℝ) - cy) ^ 2) ≤ ((⌈((max m n + 1 : ℕ) : ℝ) / b⌉₊ : ℝ) - 3 / 2) * b := by
  rw [(C55_returned_partial m n P cz cy b hb).2, sub_eq_self]
  have hlast : ∀ i j : ℕ, binIndex m n cz cy b i j = (binCentres m n b).length - 1 ↔
      ¬ (Real.sqrt (((i : ℝ) - cz) ^ 2 + ((j : ℝ) - cy) ^ 2) ≤ ((⌈((max m n + 1 : ℕ) : ℝ) / b⌉₊ : ℝ) - 3 / 2) * b) := by
    intro i j
    obtain ⟨h1, h2⟩ := binIndex_spec m n cz cy hb i j
    rw [← bins_length m n b]
    change _ ↔ ¬ (radius cz cy i j ≤ _)
    have hr0 : 0 ≤ radius cz cy i j := Real.sqrt_nonneg _
    set N := (binCentres m n b).length with hN
    constructor
    · intro he hle
      rcases Nat.lt_or_ge N 2 with hN2 | hN2
      · have : N = 1 := by omega
        rw [this] at hle
        push_cast at hle
        nlinarith
      · -- the bin before is at least as near
        have hne : ∀ k < N, ((binCentres m n b).map fun c => |c - radius cz cy i j|).getD k 0 = |(k : ℝ) * b - radius cz cy i j| := by
          intro k hk
          rw [hN, bins_length] at hk
          rw [List.getD_eq_getElem?_getD, List.getElem?_map]
          unfold binCentres
          rw [List.getElem?_map, List.getElem?_range hk]
          rfl
        have hf := argminIdx_first ((binCentres m n b).map fun c => |c - radius cz cy i j|) (N - 2) (by
          show N - 2 < binIndex m n cz cy b i j
          rw [he]; omega)
        have e1 : argminIdx ((binCentres m n b).map fun c => |c - radius cz cy i j|) = N - 1 := he
        rw [e1, hne _ (by omega), hne _ (by omega)] at hf
        obtain ⟨q, hq⟩ : ∃ q, N = q + 2 := ⟨N - 2, by omega⟩
        have e2 : N - 1 = q + 1 := by omega
        have e3 : N - 2 = q := by omega
        rw [e2, e3] at hf
        rw [hq] at hle
        push_cast at hf hle
        rw [abs_of_nonneg (by nlinarith)] at hf
        rcases abs_cases ((q : ℝ) * b - radius cz cy i j) with ⟨h, -⟩ | ⟨h, -⟩ <;> rw [h] at hf <;> nlinarith
    · intro hgt
      push Not at hgt
      by_contra hne
      have hlt : binIndex m n cz cy b i j < N - 1 := by omega
      have := h2 (N - 1) (by omega)
      set k := binIndex m n cz cy b i j with hk
      have hkc : (k : ℝ) + 2 ≤ N := by exact_mod_cast (by omega : k + 2 ≤ N)
      have hc : ((N - 1 : ℕ) : ℝ) = N - 1 := by rw [Nat.cast_sub (by omega)]; simp
      rw [hc] at this
      have h3 : (k : ℝ) * b ≤ (N - 2) * b := by nlinarith
      rw [abs_of_nonpos (by nlinarith)] at this
      rcases abs_cases (((N : ℝ) - 1) * b - radius cz cy i j) with ⟨h', -⟩ | ⟨h', -⟩ <;> rw [h'] at this <;> nlinarith
  unfold histogram
  constructor
  · intro h0 i hi j hj hPij
    by_contra hcon
    have hnn : ∀ i ∈ Finset.range m, 0 ≤ ∑ j ∈ Finset.range n,
        if binIndex m n cz cy b i j = (binCentres m n b).length - 1 then P i j else 0 := by
      intro i _; apply Finset.sum_nonneg; intro j _; split_ifs; exacts [hP i j, le_rfl]
    have h1 := (Finset.sum_eq_zero_iff_of_nonneg hnn).mp h0 i (Finset.mem_range.mpr hi)
    have h2 := (Finset.sum_eq_zero_iff_of_nonneg (by intro j _; split_ifs; exacts [hP i j, le_rfl])).mp h1 j (Finset.mem_range.mpr hj)
    rw [if_pos ((hlast i j).mpr hcon)] at h2
    exact hPij h2
  · intro hall
    apply Finset.sum_eq_zero; intro i hi
    apply Finset.sum_eq_zero; intro j hj
    split_ifs with hk
    · by_contra hp
      exact (hlast i j).mp hk (hall i (Finset.mem_range.mp hi) j (Finset.mem_range.mp hj) hp)
    · rfl

end XRD
