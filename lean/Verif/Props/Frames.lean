import Verif.Props.Auto
import Verif.Props.Shift

/-! Property C92: the number of frames only decides where a peak is put.  Rendering with `k·n` frames and adding up groups of `k`
consecutive frames gives the rendering with `n` frames. -/

namespace XRD
open V3 M3 Fl Spec
open scoped Classical

/-! ### time bins -/

theorem frameOf_clamp {n : ℤ} (hn : 1 ≤ n) (t : ℝ) : frameOf n t = max 0 (min (⌈t * n⌉ - 1) (n - 1)) := by
  rcases hn.eq_or_lt with rfl | hn'
  · have : frameOf 1 t = 0 := by simp [frameOf]
    rw [this]; omega
  · have hnR : (0 : ℝ) < (n : ℝ) := by exact_mod_cast (by omega : 0 < n)
    rcases le_or_gt 0 t with h0 | h0
    · unfold frameOf
      rw [if_neg (by omega)]
      simp only [List.filter_map, List.length_map, Function.comp_def]
      have hc : (fun i : ℕ => decide ((i : ℝ) / (n : ℝ) < t)) = fun i : ℕ => decide ((i : ℝ) < t * n) := by
        funext i; exact decide_eq_decide.mpr (div_lt_iff₀ hnR)
      rw [hc, count_below _ (by positivity)]
      have hcast : ((⌈t * n⌉₊ : ℕ) : ℤ) = ⌈t * n⌉ := Int.natCast_ceil_eq_ceil (by positivity)
      rw [← hcast]
      omega
    · unfold frameOf
      rw [if_neg (by omega)]
      have : ((List.range (n.toNat + 1)).map fun i : ℕ => (i : ℝ) / (n : ℝ)).filter (fun b => b < t) = [] := by
        rw [List.filter_eq_nil_iff]
        intro b hb
        obtain ⟨i, -, rfl⟩ := List.mem_map.mp hb
        have : (0:ℝ) ≤ (i : ℝ) / n := by positivity
        simp only [decide_eq_true_eq, not_lt]
        linarith
      simp only [this, List.length_nil]
      have h1 : ⌈t * n⌉ ≤ 0 := by
        apply Int.ceil_le.mpr
        push_cast
        nlinarith
      omega

/-- the frame of a time in a coarse series is the group its fine frame belongs to -/
theorem frameOf_group {n k : ℤ} (hn : 1 ≤ n) (hk : 1 ≤ k) (t : ℝ) : frameOf n t = frameOf (k * n) t / k := by
  have hkn : 1 ≤ k * n := by nlinarith
  rw [frameOf_clamp hn, frameOf_clamp hkn]
  set a := ⌈t * n⌉ with ha
  set c := ⌈t * ((k * n : ℤ) : ℝ)⌉ with hc
  have hkR : (1:ℝ) ≤ k := by exact_mod_cast hk
  have a1 := Int.le_ceil (t * n)
  have a2 := Int.ceil_lt_add_one (t * n)
  have c1 := Int.le_ceil (t * ((k * n : ℤ) : ℝ))
  have c2 := Int.ceil_lt_add_one (t * ((k * n : ℤ) : ℝ))
  rw [← ha] at a1 a2
  rw [← hc] at c1 c2
  push_cast at c1 c2
  have h1 : k * (a - 1) < c := by
    have : (k:ℝ) * (a - 1) < c := by nlinarith
    exact_mod_cast this
  have h2 : c - 1 < k * a := by
    have : (c:ℝ) - 1 < k * a := by nlinarith
    exact_mod_cast this
  symm
  rw [Int.ediv_eq_iff_of_pos (by omega)]
  constructor
  · rcases le_total a 1 with h | h
    · have : max 0 (min (a - 1) (n - 1)) = 0 := by omega
      rw [this]; simp
    · have e : max 0 (min (a - 1) (n - 1)) = min (a - 1) (n - 1) := by omega
      rw [e]
      have e2 : min (c - 1) (k * n - 1) ≤ max 0 (min (c - 1) (k * n - 1)) := le_max_right _ _
      refine le_trans ?_ e2
      rw [le_min_iff]
      constructor
      · calc min (a - 1) (n - 1) * k ≤ (a - 1) * k := by gcongr; exact min_le_left _ _
          _ ≤ _ := by linarith
      · calc min (a - 1) (n - 1) * k ≤ (n - 1) * k := by gcongr; exact min_le_right _ _
          _ ≤ _ := by linarith
  · rw [max_lt_iff]
    constructor
    · have : 0 ≤ max 0 (min (a - 1) (n - 1)) := le_max_left _ _
      nlinarith
    · rcases le_total a n with h | h
      · calc min (c - 1) (k * n - 1) ≤ c - 1 := min_le_left _ _
          _ < (a - 1 + 1) * k := by linarith
          _ ≤ _ := by
            have : min (a - 1) (n - 1) = a - 1 := by omega
            have h' : a - 1 ≤ max 0 (min (a - 1) (n - 1)) := by rw [this]; exact le_max_right _ _
            nlinarith
      · calc min (c - 1) (k * n - 1) ≤ k * n - 1 := min_le_right _ _
          _ < (n - 1 + 1) * k := by linarith
          _ ≤ _ := by
            have : min (a - 1) (n - 1) = n - 1 := by omega
            have h' : n - 1 ≤ max 0 (min (a - 1) (n - 1)) := by rw [this]; exact le_max_right _ _
            nlinarith

theorem rowFrame_group {n k : ℤ} (hn : 1 ≤ n) (hk : 1 ≤ k) (q : List Fl) :
    ∃ a b : ℤ, Detector.rowFrame n q = fin a ∧ Detector.rowFrame (k * n) q = fin b ∧ 0 ≤ b ∧ b < k * n ∧ a = b / k := by
  have hkn : 1 ≤ k * n := by nlinarith
  unfold Detector.rowFrame
  split
  · rename_i t _
    exact ⟨_, _, rfl, rfl, (frameOf_range hkn t).1, (frameOf_range hkn t).2, frameOf_group hn hk t⟩
  · exact ⟨0, 0, by simp, by simp, le_rfl, by omega, by simp⟩
  · refine ⟨n - 1, k * n - 1, ?_, ?_, by omega, by omega, ?_⟩
    · congr 1
      split_ifs with h
      · have : n = 1 := by omega
        subst this; norm_num
      · push_cast; rfl
    · congr 1
      split_ifs with h
      · have : k * n = 1 := by omega
        rw [this]; norm_num
      · push_cast; rfl
    · symm
      rw [Int.ediv_eq_iff_of_pos (by omega)]
      constructor <;> nlinarith

/-! ### every peak contributes a fixed image to its frame -/

/-- What one kind of rendering does for every number of frames: it always raises, or always contains NaN, or every peak `q` has an
image `φ`, the same for every number of frames, and a frame is the sum of the images of the peaks assigned to it. -/
def FixedImages (D : Detector) (env : RenderEnv) (d : PeaksDict) (mesh : TetraMesh) (method : Detector.Method) (ml : Option ℝ) (mi : ℝ) : Prop :=
  (∀ n : ℕ, 1 ≤ n → ∃ e, D.render env d mesh n method ml mi = .error e) ∨
  (∀ n : ℕ, 1 ≤ n → ∃ o, D.render env d mesh n method ml mi = .ok (none, o)) ∨
  ∃ l : List (List Fl × Frame), (∀ q ∈ l, q.1 ∈ d.peaks) ∧ ∀ n : ℕ, 1 ≤ n → ∃ t o, D.render env d mesh n method ml mi = .ok (some t, o) ∧
    ∀ f < n, ∀ i j, t f i j = ((l.filter fun q => Detector.rowFrame n q.1 = fin (f : ℝ)).map fun q => q.2 i j).sum

theorem conv2d_listSum {α : Type} (h w : ℕ) (k : Kernel) (l : List α) (t : α → Frame) (i j : ℕ) :
    conv2d h w k (fun i j => (l.map fun a => t a i j).sum) i j = (l.map fun a => conv2d h w k (t a) i j).sum := by
  induction l with
  | nil => simp [conv2d_zero]
  | cons a l ih =>
    simp only [List.map_cons, List.sum_cons]
    rw [conv2d_add, ih]

theorem rcol28_row30 (D : Detector) (n : ℤ) {q : List Fl} (hl : q.length = 25) (hn : 1 ≤ n) (f : ℕ) :
    rcol (row30 D n q) 28 = (f : ℝ) ↔ Detector.rowFrame n q = fin (f : ℝ) := by
  have hl3 := rowIntersect_length D q
  obtain ⟨k, hk, -⟩ := rowFrame_range hn q
  have : rcol (row30 D n q) 28 = k := by
    unfold rcol row30
    rw [List.getElem?_append_left (by simp [hl, hl3]), List.getElem?_append_right (by simp [hl, hl3])]
    simp [hl, hl3, hk]
  rw [this, hk]
  simp

/-- a filtered sum over mapped rows -/
theorem filter_rows_sum {D : Detector} {n : ℕ} (hn : 1 ≤ n) {L : List (List Fl)} (hL : ∀ q ∈ L, q.length = 25) (g : List Fl → ℝ) (f : ℕ) :
    (((L.map (row30 D n)).filter fun r => rcol r 28 = (f : ℝ)).map g).sum =
      ((L.filter fun q => Detector.rowFrame n q = fin (f : ℝ)).map fun q => g (row30 D n q)).sum := by
  rw [List.filter_map, List.map_map]
  congr 2
  apply List.filter_congr
  intro q hq
  rw [Function.comp, decide_eq_decide]
  exact rcol28_row30 D n (hL q hq) (by exact_mod_cast hn) f

theorem fixed_macro (D : Detector) (env : RenderEnv) (d : PeaksDict) (mesh : TetraMesh) (ml : Option ℝ) (mi : ℝ)
    (hlen : ∀ r ∈ d.peaks, r.length = 25) : FixedImages D env d mesh .macro ml mi := by
  set L := d.peaks.filter fun row => D.contains ((D.rowIntersect row).getD 0 nan) ((D.rowIntersect row).getD 1 nan) ∧
      Fl.IsFinite (D.rowIntensity row) ∧ Fl.Lt (fin 0) (D.rowIntensity row) with hL
  have hL25 : ∀ q ∈ L, q.length = 25 := fun q hq => hlen q (List.mem_filter.mp hq).1
  have hfr : ∀ m : ℤ, 1 ≤ m → ∀ r ∈ L.map (row30 D m), ∃ k : ℕ, rcol r 28 = k ∧ k < m.toNat := by
    intro m hm r hr
    rw [hL, ← peaksIntersection_rows D d m hlen] at hr
    obtain ⟨q, -, -, ⟨k, hk, h0, h1⟩, -⟩ := hitRows hm hlen r hr
    refine ⟨k.toNat, ?_, by omega⟩
    rw [hk]; exact_mod_cast (Int.toNat_of_nonneg h0).symm
  have hadd : ∀ n : ℤ, ∀ q ∈ L, macroAdd D env d.beam mesh d.motion (row30 D n q) = macroAdd D env d.beam mesh d.motion (row30 D 1 q) := by
    intro n q hq
    exact macroAdd_congr fun j hj => rcol_congr ((row30_cols D n (hL25 q hq)).1 j hj)
  have hex : ∀ (n : ℤ) v, (∃ r ∈ L.map (row30 D n), macroAdd D env d.beam mesh d.motion r = v) ↔
      ∃ q ∈ L, macroAdd D env d.beam mesh d.motion (row30 D 1 q) = v := by
    intro n v
    constructor
    · rintro ⟨r, hr, h⟩
      obtain ⟨q, hq, rfl⟩ := List.mem_map.mp hr
      exact ⟨q, hq, by rw [← hadd n q hq]; exact h⟩
    · rintro ⟨q, hq, h⟩
      exact ⟨_, List.mem_map.mpr ⟨q, hq, rfl⟩, by rw [hadd n q hq]; exact h⟩
  have hren : ∀ n : ℕ, 1 ≤ n → D.render env d mesh n .macro ml mi =
      (if ∃ q ∈ L, macroAdd D env d.beam mesh d.motion (row30 D 1 q) = .error .indexError then .error .indexError
      else if ∃ q ∈ L, macroAdd D env d.beam mesh d.motion (row30 D 1 q) = .ok none then .ok none
      else .ok (some fun f => if f < n then conv2d D.nz D.ny D.gaussKernel fun i j =>
        (((L.map (row30 D n)).filter fun r => rcol r 28 = (f : ℝ)).map fun r => macroVal D env d.beam mesh d.motion r i j).sum
        else fun _ _ => 0) : Except PyErr (Option Stack)).map fun t => (t, D.peaksIntersection d n) := by
    intro n hn
    have e : max (n : ℤ) 1 = n := by omega
    rw [render_macro, e, peaksIntersection_rows D d n hlen, ← hL, renderMacro_eq (hfr n (by omega))]
    simp only [hex, Int.toNat_natCast]
  by_cases h1 : ∃ q ∈ L, macroAdd D env d.beam mesh d.motion (row30 D 1 q) = .error .indexError
  · left; intro n hn; rw [hren n hn, if_pos h1]; exact ⟨_, rfl⟩
  right
  by_cases h2 : ∃ q ∈ L, macroAdd D env d.beam mesh d.motion (row30 D 1 q) = .ok none
  · left; intro n hn; rw [hren n hn, if_neg h1, if_pos h2]; exact ⟨_, rfl⟩
  right
  refine ⟨L.map fun q => (q, conv2d D.nz D.ny D.gaussKernel (macroVal D env d.beam mesh d.motion (row30 D 1 q))), ?_, ?_⟩
  · intro q hq
    obtain ⟨p, hp, rfl⟩ := List.mem_map.mp hq
    exact (List.mem_filter.mp hp).1
  · intro n hn
    rw [hren n hn, if_neg h1, if_neg h2]
    refine ⟨_, _, rfl, ?_⟩
    intro f hf i j
    rw [if_pos hf]
    simp only [filter_rows_sum hn hL25]
    rw [conv2d_listSum _ _ _ _ (fun q => macroVal D env d.beam mesh d.motion (row30 D n q)), List.filter_map, List.map_map]
    congr 1
    apply List.map_congr_left
    intro q hq
    have : macroVal D env d.beam mesh d.motion (row30 D n q) = macroVal D env d.beam mesh d.motion (row30 D 1 q) := by
      unfold macroVal; rw [hadd n q (List.mem_filter.mp hq).1]
    simp only [Function.comp, this]

/-- the deposits of one frame -/
theorem stackOf_oneFrame (n h w k : ℕ) (ds : List Deposit) (hd : ∀ d ∈ ds, ∃ a b, d.target n h w = some (k, a, b)) (f i j : ℕ) :
    stackOf n h w ds f i j = if f = k then stackOf 1 h w (ds.map Deposit.noF) 0 i j else 0 := by
  induction ds with
  | nil => simp [stackOf_nil]
  | cons d ds ih =>
    rw [List.map_cons, stackOf_cons, stackOf_cons, ih fun e he => hd e (List.mem_cons_of_mem _ he)]
    obtain ⟨a, b, ht⟩ := hd d List.mem_cons_self
    rw [ht, noF_target ht]
    by_cases hf : f = k
    · subst hf
      simp [Deposit.noF]
    · have : ¬ (some (k, a, b) = some (f, i, j)) := by
        simp; intro h; exact absurd h.symm hf
      rw [if_neg this, if_neg hf, if_neg hf, add_zero]

theorem fixed_micro (D : Detector) (env : RenderEnv) (d : PeaksDict) (mesh : TetraMesh) (ml : Option ℝ) (mi : ℝ)
    (hlen : ∀ r ∈ d.peaks, r.length = 25) : FixedImages D env d mesh .micro ml mi := by
  right; right
  set L := d.peaks.filter fun row => D.contains ((D.rowIntersect row).getD 0 nan) ((D.rowIntersect row).getD 1 nan) ∧
      Fl.IsFinite (D.rowIntensity row) ∧ Fl.Lt (fin 0) (D.rowIntensity row) with hL
  have hL25 : ∀ q ∈ L, q.length = 25 := fun q hq => hlen q (List.mem_filter.mp hq).1
  refine ⟨L.map fun q => (q, fun i j => stackOf 1 D.nz D.ny (D.microDeposits (row30 D 1 q)) 0 i j), ?_, ?_⟩
  · intro q hq
    obtain ⟨p, hp, rfl⟩ := List.mem_map.mp hq
    exact (List.mem_filter.mp hp).1
  · intro n hn
    refine ⟨_, _, render_micro_ok hlen, ?_⟩
    intro f hf i j
    have e : max (n : ℤ) 1 = n := by omega
    rw [e, Int.toNat_natCast, peaksIntersection_rows D d n hlen, ← hL, List.flatMap_map, stackOf_flatMap, List.filter_map, List.map_map]
    have : ∀ M : List (List Fl), (∀ q ∈ M, q ∈ L) →
        (M.map fun q => stackOf n D.nz D.ny (D.microDeposits (row30 D n q)) f i j).sum =
        ((M.filter fun q => Detector.rowFrame n q = fin (f : ℝ)).map fun q => stackOf 1 D.nz D.ny (D.microDeposits (row30 D 1 q)) 0 i j).sum := by
      intro M
      induction M with
      | nil => intro _; simp
      | cons q M ih =>
        intro hM
        have hq := hM q List.mem_cons_self
        rw [List.map_cons, List.sum_cons, ih fun p hp => hM p (List.mem_cons_of_mem _ hp)]
        obtain ⟨h1, h2⟩ := row30_cols D n (hL25 q hq)
        have hin : row30 D n q ∈ (D.peaksIntersection d n).peaks := by
          rw [peaksIntersection_rows D d n hlen]
          exact List.mem_map.mpr ⟨q, hq, rfl⟩
        obtain ⟨_, -, -, ⟨k, hk, hk0, hk1⟩, -⟩ := hitRows (by exact_mod_cast hn) hlen _ hin
        rw [stackOf_oneFrame n D.nz D.ny k.toNat _ (fun e he => ⟨_, _, (microDeposits_spec hk hk0 hk1 he).2.1⟩),
          microDeposits_noF (rcol_congr (h1 25 (by norm_num))) (rcol_congr (h1 26 (by norm_num))) (rcol_congr (h1 29 (by norm_num)))
            (rcol_congr (h1 21 (by norm_num))) h2, List.filter_cons]
        have hc := rcol28_row30 D n (hL25 q hq) (by exact_mod_cast hn) f
        rw [hk] at hc
        by_cases hf : f = k.toNat
        · have : (k:ℝ) = (f:ℝ) := by rw [hf]; exact_mod_cast (Int.toNat_of_nonneg hk0).symm
          rw [if_pos hf, if_pos (decide_eq_true (hc.mp this)), List.map_cons, List.sum_cons]
        · have : ¬ (k:ℝ) = (f:ℝ) := by
            intro h
            have : k = (f:ℤ) := by exact_mod_cast h
            omega
          rw [if_neg hf, if_neg (by simpa using fun h => this (hc.mpr h)), zero_add]
    exact this L fun q hq => hq

theorem nanoPairs_family {D : Detector} {j1 : ℝ → ℝ} (g : ℤ → List Fl → List Fl) (bs : List (List (List Fl)))
    (hg : ∀ m, ∀ b ∈ bs, ∀ q ∈ b, D.firstZero (g m q) = D.firstZero (g 1 q)) :
    (∃ e, ∀ m, nanoPairs D j1 (bs.map (List.map (g m))) = .error e) ∨
    ∃ qks : List (List Fl × Kernel), qks.map Prod.fst = bs.flatten ∧
      ∀ m, nanoPairs D j1 (bs.map (List.map (g m))) = .ok (qks.map fun qk => (g m qk.1, qk.2)) := by
  induction bs with
  | nil => exact Or.inr ⟨[], rfl, fun _ => rfl⟩
  | cons b bs ih =>
    have hb : ∀ m, (b.map (g m)).map D.firstZero = (b.map (g 1)).map D.firstZero := by
      intro m
      rw [List.map_map, List.map_map]
      apply List.map_congr_left
      intro q hq
      exact hg m b List.mem_cons_self q hq
    simp only [List.map_cons, nanoPairs, hb]
    cases hk : D.airyKernels j1 ((b.map (g 1)).map D.firstZero) with
    | error e => exact Or.inl ⟨e, fun _ => rfl⟩
    | ok ks =>
      simp only
      rcases ih (fun m c hc => hg m c (List.mem_cons_of_mem _ hc)) with ⟨e, h⟩ | ⟨qks, h0, h⟩
      · left; exact ⟨e, fun m => by rw [h]; rfl⟩
      · right
        have hl := airyKernels_length hk
        simp only [List.length_map] at hl
        refine ⟨b.zip ks ++ qks, ?_, ?_⟩
        · rw [List.map_append, h0, List.map_fst_zip (by omega), List.flatten_cons]
        · intro m
          rw [h]
          show Except.ok _ = Except.ok _
          rw [List.map_append, List.zip_map_left]
          rfl

theorem batchesBy_congr {α : Type} (w w' : α → ℝ) (c : ℝ) (l : List α) (h : ∀ a ∈ l, w a = w' a) : batchesBy w c l = batchesBy w' c l := by
  induction hk : l.length using Nat.strong_induction_on generalizing l with
  | _ k ih =>
    cases l with
    | nil => simp [batchesBy]
    | cons r rs =>
      rw [batchesBy, batchesBy]
      have e : ∀ i : ℕ, ((r :: rs).take (i + 1)).map w = ((r :: rs).take (i + 1)).map w' := by
        intro i
        apply List.map_congr_left
        intro q hq
        exact h q (List.mem_of_mem_take hq)
      simp only [e]
      congr 1
      refine ih _ ?_ _ (fun q hq => h q (List.mem_of_mem_drop hq)) rfl
      rw [← hk, List.length_drop, List.length_cons]
      have : ∀ x : ℕ, 1 ≤ max 1 x := fun x => le_max_left _ _
      have := this (List.filter (fun i => decide ((List.map w' (List.take (i + 1) (r :: rs))).sum ≤ c)) (List.range (rs.length + 1))).length
      simp only [List.length_cons] at *
      omega

theorem fixed_nano (D : Detector) (env : RenderEnv) (hs : IsArgsort env.argsortDesc) (d : PeaksDict) (mesh : TetraMesh) (ml : Option ℝ) (mi : ℝ)
    (hlen : ∀ r ∈ d.peaks, r.length = 25) : FixedImages D env d mesh .nano ml mi := by
  set L := d.peaks.filter fun row => D.contains ((D.rowIntersect row).getD 0 nan) ((D.rowIntersect row).getD 1 nan) ∧
      Fl.IsFinite (D.rowIntensity row) ∧ Fl.Lt (fin 0) (D.rowIntensity row) with hL
  have hL25 : ∀ q ∈ L, q.length = 25 := fun q hq => hlen q (List.mem_filter.mp hq).1
  have hkey : ∀ n : ℤ, (L.map (row30 D n)).map D.airyMemory = (L.map (row30 D 1)).map D.airyMemory := by
    intro n
    rw [List.map_map, List.map_map]
    apply List.map_congr_left
    intro q hq
    exact airyMemory_congr (row30_cols D n (hL25 q hq)).1
  have hsorted : ∀ m : ℤ, sortedRows env.argsortDesc D.airyMemory (L.map (row30 D m)) =
      ((env.argsortDesc ((L.map (row30 D m)).map D.airyMemory)).map fun i => L.getD i []).map (row30 D m) := by
    intro m
    unfold sortedRows
    rw [List.map_map (f := fun i => L.getD i []) (g := row30 D m)]
    apply List.map_congr_left
    intro i hi
    have : i < L.length := by
      have := (hs ((L.map (row30 D m)).map D.airyMemory)).mem_iff.mp hi
      simpa using this
    simp [this]
  set M := (env.argsortDesc ((L.map (row30 D 1)).map D.airyMemory)).map fun i => L.getD i [] with hM
  have hMm : ∀ q ∈ M, q ∈ L := by
    intro q hq
    obtain ⟨i, hi, rfl⟩ := List.mem_map.mp hq
    have : i < L.length := by
      have := (hs ((L.map (row30 D 1)).map D.airyMemory)).mem_iff.mp hi
      simpa using this
    rw [List.getD_eq_getElem?_getD, List.getElem?_eq_getElem this]
    exact List.getElem_mem this
  set bs := batchesBy (fun a => D.airyMemory (row30 D 1 a)) (env.freeGb * 1024 ^ 3) M with hbs
  have hflat : bs.flatten = M := batchesBy_flatten _ _ _
  have hmem : ∀ b ∈ bs, ∀ q ∈ b, q ∈ L := by
    intro b hb q hq
    apply hMm
    rw [← hflat]
    exact List.mem_flatten.mpr ⟨b, hb, hq⟩
  have hren : ∀ n : ℕ, 1 ≤ n → D.render env d mesh n .nano ml mi =
      ((nanoPairs D env.j1 (bs.map (List.map (row30 D n)))).map fun rks => fun f =>
        if f < n then conv2d D.nz D.ny D.gaussKernel fun i j => cornerSum D.nz D.ny (allCorners (nanoAdd D rks f)) i j
        else fun _ _ => 0).map fun t => (some t, D.peaksIntersection d n) := by
    intro n hn
    have e : max (n : ℤ) 1 = n := by omega
    rw [render_nano, renderNano_eq hs, e, peaksIntersection_rows D d n hlen, ← hL, hsorted, hkey, ← hM, nanoBatches_eq,
      batchesBy_congr (fun a => D.airyMemory (row30 D n a)) (fun a => D.airyMemory (row30 D 1 a)) _ M
        (fun q hq => airyMemory_congr (row30_cols D n (hL25 q (hMm q hq))).1), ← hbs, Int.toNat_natCast]
  rcases nanoPairs_family (D := D) (j1 := env.j1) (fun m => row30 D m) bs (fun m b hb q hq =>
    firstZero_congr (row30_cols D m (hL25 q (hmem b hb q hq))).1) with ⟨e, h⟩ | ⟨qks, h0, h⟩
  · left; intro n hn; rw [hren n hn, h]; exact ⟨e, rfl⟩
  right; right
  have hqk : ∀ qk ∈ qks, qk.1 ∈ L := by
    intro qk hq
    apply hMm
    rw [← hflat, ← h0]
    exact List.mem_map.mpr ⟨qk, hq, rfl⟩
  refine ⟨qks.map fun qk => (qk.1, conv2d D.nz D.ny D.gaussKernel (kernelAdd D.nz D.ny
    (Detector.scaleKernel qk.2 (rcol (row30 D 1 qk.1) 29 * rcol (row30 D 1 qk.1) 21), rcol (row30 D 1 qk.1) 25 / D.pz, rcol (row30 D 1 qk.1) 26 / D.py))), ?_, ?_⟩
  · intro q hq
    obtain ⟨p, hp, rfl⟩ := List.mem_map.mp hq
    exact (List.mem_filter.mp (hqk p hp)).1
  · intro n hn
    rw [hren n hn, h]
    refine ⟨_, _, rfl, ?_⟩
    intro f hf i j
    beta_reduce
    rw [if_pos hf]
    have hrow : ∀ i j, cornerSum D.nz D.ny (allCorners (nanoAdd D (qks.map fun qk => (row30 D n qk.1, qk.2)) f)) i j =
        ((qks.filter fun qk => Detector.rowFrame n qk.1 = fin (f : ℝ)).map fun qk => kernelAdd D.nz D.ny
          (Detector.scaleKernel qk.2 (rcol (row30 D 1 qk.1) 29 * rcol (row30 D 1 qk.1) 21), rcol (row30 D 1 qk.1) 25 / D.pz,
            rcol (row30 D 1 qk.1) 26 / D.py) i j).sum := by
      intro i j
      rw [cornerSum_allCorners]
      unfold nanoAdd
      rw [List.filter_map, List.map_map, List.map_map]
      have hfil : qks.filter ((fun rk : List Fl × Kernel => decide (rcol rk.1 28 = (f:ℝ))) ∘ fun qk => (row30 D n qk.1, qk.2)) =
          qks.filter fun qk => Detector.rowFrame n qk.1 = fin (f : ℝ) := by
        apply List.filter_congr
        intro qk hq
        rw [Function.comp, decide_eq_decide]
        exact rcol28_row30 D n (hL25 _ (hqk qk hq)) (by exact_mod_cast hn) f
      rw [hfil]
      congr 1
      apply List.map_congr_left
      intro qk hq
      have hc := (row30_cols D n (hL25 _ (hqk qk (List.mem_filter.mp hq).1))).1
      simp only [Function.comp]
      rw [rcol_congr (hc 29 (by norm_num)), rcol_congr (hc 21 (by norm_num)), rcol_congr (hc 25 (by norm_num)), rcol_congr (hc 26 (by norm_num))]
    simp only [hrow]
    rw [conv2d_listSum _ _ _ _ (fun qk : List Fl × Kernel => kernelAdd D.nz D.ny
          (Detector.scaleKernel qk.2 (rcol (row30 D 1 qk.1) 29 * rcol (row30 D 1 qk.1) 21), rcol (row30 D 1 qk.1) 25 / D.pz,
            rcol (row30 D 1 qk.1) 26 / D.py)), List.filter_map, List.map_map]
    rfl

theorem fixed_auto (D : Detector) (env : RenderEnv) (hs : IsArgsort env.argsortDesc) (d : PeaksDict) (hcol : d.columns = peakColumns)
    (mesh : TetraMesh) (ml : Option ℝ) (mi : ℝ) (hlen : ∀ r ∈ d.peaks, r.length = 25) : FixedImages D env d mesh .auto ml mi := by
  have hl : ∀ p : ℝ → Prop, ∀ r ∈ (withVolume d p).peaks, r.length = 25 := fun p r hr => hlen r (List.mem_filter.mp hr).1
  have hmem : ∀ p : ℝ → Prop, ∀ r ∈ (withVolume d p).peaks, r ∈ d.peaks := fun p r hr => (List.mem_filter.mp hr).1
  have sp := fun n : ℕ => auto_split D env d hcol hlen mesh n ml mi
  have err : ∀ n : ℕ, (∀ t o, D.render env d mesh n .auto ml mi ≠ .ok (t, o)) → ∃ e, D.render env d mesh n .auto ml mi = .error e := by
    intro n h
    cases hr : D.render env d mesh n .auto ml mi with
    | error e => exact ⟨e, rfl⟩
    | ok v => exact absurd hr (h v.1 v.2)
  have hmi := fixed_micro D env (withVolume d fun v => mi ≤ v ∧ v < macroLimit D ml) mesh ml mi (hl _)
  rcases hmi with hmi | hmi | ⟨l2, hl2, hmi⟩
  · obtain ⟨e, he⟩ := hmi 1 le_rfl
    rw [render_micro_ok (hl _)] at he; cases he
  · obtain ⟨e, he⟩ := hmi 1 le_rfl
    rw [render_micro_ok (hl _)] at he; cases he
  rcases fixed_nano D env hs (withVolume d fun v => v < mi) mesh ml mi (hl _) with hna | hna | ⟨l3, hl3, hna⟩
  · left
    intro n hn
    obtain ⟨e, he⟩ := hna n hn
    apply err
    intro t o h
    obtain ⟨_, _, _, _, _, _, -, -, h3, -⟩ := (sp n t o).mp h
    rw [he] at h3; cases h3
  · exfalso
    obtain ⟨o, h⟩ := hna 1 le_rfl
    rw [render_nano] at h
    cases hq : D.renderNano env (D.peaksIntersection (withVolume d fun v => v < mi) (max ((1:ℕ):ℤ) 1)).peaks (max ((1:ℕ):ℤ) 1).toNat with
    | error e => rw [hq] at h; cases h
    | ok v => rw [hq] at h; cases h
  rcases fixed_macro D env (withVolume d fun v => macroLimit D ml ≤ v) mesh ml mi (hl _) with hma | hma | ⟨l1, hl1, hma⟩
  · left
    intro n hn
    obtain ⟨e, he⟩ := hma n hn
    apply err
    intro t o h
    obtain ⟨_, _, _, _, _, _, h1, -⟩ := (sp n t o).mp h
    rw [he] at h1; cases h1
  · right; left
    intro n hn
    obtain ⟨o, h1⟩ := hma n hn
    obtain ⟨t2, o2, h2, -⟩ := hmi n hn
    obtain ⟨t3, o3, h3, -⟩ := hna n hn
    exact ⟨_, (sp n _ _).mpr ⟨_, _, _, _, _, _, h1, h2, h3, rfl, rfl⟩⟩
  · right; right
    refine ⟨l1 ++ l2 ++ l3, ?_, ?_⟩
    · intro q hq
      rw [List.mem_append, List.mem_append] at hq
      rcases hq with (hq | hq) | hq
      · exact hmem _ _ (hl1 q hq)
      · exact hmem _ _ (hl2 q hq)
      · exact hmem _ _ (hl3 q hq)
    · intro n hn
      obtain ⟨t1, o1, h1, e1⟩ := hma n hn
      obtain ⟨t2, o2, h2, e2⟩ := hmi n hn
      obtain ⟨t3, o3, h3, e3⟩ := hna n hn
      refine ⟨_, _, (sp n _ _).mpr ⟨_, _, _, _, _, _, h1, h2, h3, rfl, rfl⟩, ?_⟩
      intro f hf i j
      simp only [e1 f hf, e2 f hf, e3 f hf, List.filter_append, List.map_append, List.sum_append]

/-- every method renders by fixed images -/
theorem fixed_images (D : Detector) (env : RenderEnv) (hs : IsArgsort env.argsortDesc) (d : PeaksDict) (hcol : d.columns = peakColumns)
    (mesh : TetraMesh) (method : Detector.Method) (ml : Option ℝ) (mi : ℝ) (hlen : ∀ r ∈ d.peaks, r.length = 25) :
    FixedImages D env d mesh method ml mi := by
  cases method with
  | «macro» => exact fixed_macro D env d mesh ml mi hlen
  | micro => exact fixed_micro D env d mesh ml mi hlen
  | nano => exact fixed_nano D env hs d mesh ml mi hlen
  | auto => exact fixed_auto D env hs d hcol mesh ml mi hlen
  | other => left; intro n _; exact ⟨.valueError, rfl⟩

/-! ### C92 -/

theorem group_sum (k n f : ℕ) (hk : 1 ≤ k) (hn : 1 ≤ n) (l : List (List Fl × Frame)) (i j : ℕ) :
    ∑ s ∈ Finset.range k, ((l.filter fun q => Detector.rowFrame ((k * n : ℕ) : ℤ) q.1 = fin ((k * f + s : ℕ) : ℝ)).map fun q => q.2 i j).sum =
      ((l.filter fun q => Detector.rowFrame n q.1 = fin (f : ℝ)).map fun q => q.2 i j).sum := by
  induction l with
  | nil => simp
  | cons q l ih =>
    obtain ⟨a, b, ha, hb, hb0, hb1, hab⟩ := rowFrame_group (n := n) (k := k) (by omega) (by omega) q.1
    have hb' : Detector.rowFrame ((k * n : ℕ) : ℤ) q.1 = fin b := by push_cast; exact hb
    have e1 : ∀ s : ℕ, (((q :: l).filter fun q => Detector.rowFrame ((k * n : ℕ) : ℤ) q.1 = fin ((k * f + s : ℕ) : ℝ)).map fun q => q.2 i j).sum =
        (if b.toNat = k * f + s then q.2 i j else 0) +
        ((l.filter fun q => Detector.rowFrame ((k * n : ℕ) : ℤ) q.1 = fin ((k * f + s : ℕ) : ℝ)).map fun q => q.2 i j).sum := by
      intro s
      have hiff : (Detector.rowFrame ((k * n : ℕ) : ℤ) q.1 = fin ((k * f + s : ℕ) : ℝ)) ↔ b.toNat = k * f + s := by
        rw [hb', Fl.fin.injEq]
        constructor
        · intro h
          have : b = ((k * f + s : ℕ) : ℤ) := by exact_mod_cast h
          omega
        · intro h
          rw [← h]; exact_mod_cast (Int.toNat_of_nonneg hb0).symm
      rw [List.filter_cons]
      by_cases h : b.toNat = k * f + s
      · rw [if_pos (decide_eq_true (hiff.mpr h)), if_pos h, List.map_cons, List.sum_cons]
      · rw [if_neg (by simpa using fun h' => h (hiff.mp h')), if_neg h, zero_add]
    rw [Finset.sum_congr rfl fun s _ => e1 s, Finset.sum_add_distrib, ih, List.filter_cons]
    have hiff : (Detector.rowFrame n q.1 = fin (f : ℝ)) ↔ a = f := by
      rw [ha, Fl.fin.injEq]
      constructor
      · intro h; exact_mod_cast h
      · intro h; rw [h]; simp
    have hk0 : (0:ℤ) < k := by omega
    have hdm := Int.emod_add_mul_ediv b k
    have hm0 := Int.emod_nonneg b (show (k:ℤ) ≠ 0 by omega)
    have hm1 := Int.emod_lt_of_pos b hk0
    by_cases h : a = f
    · rw [if_pos (decide_eq_true (hiff.mpr h)), List.map_cons, List.sum_cons]
      congr 1
      rw [Finset.sum_eq_single (b % k).toNat]
      · rw [if_pos]
        rw [← hab, h] at hdm
        have : (k:ℤ) * f = ((k * f : ℕ) : ℤ) := by push_cast; ring
        rw [this] at hdm
        omega
      · intro s hs hne
        rw [if_neg]
        intro hb2
        apply hne
        rw [← hab, h] at hdm
        have : (k:ℤ) * f = ((k * f : ℕ) : ℤ) := by push_cast; ring
        rw [this] at hdm
        omega
      · intro hh
        exact absurd (Finset.mem_range.mpr (by omega)) hh
    · rw [if_neg (by simpa using fun h' => h (hiff.mp h'))]
      rw [Finset.sum_eq_zero, zero_add]
      intro s hs
      rw [if_neg]
      intro hb2
      apply h
      rw [hab, Int.ediv_eq_iff_of_pos hk0]
      have hs' := Finset.mem_range.mp hs
      have hb3 : b = ((k * f + s : ℕ) : ℤ) := by omega
      rw [hb3]
      push_cast
      constructor <;> nlinarith

/-- C92, for every method: rendering with `k·n` frames and adding up the groups of `k` consecutive frames gives the rendering with
`n` frames; one rendering raises, or contains NaN, exactly if the other does.  The sampled points of a hull are taken to be the
same in both renderings. -/
theorem C92_coarser_frames (D : Detector) (env : RenderEnv) (hs : IsArgsort env.argsortDesc) (d : PeaksDict) (hcol : d.columns = peakColumns)
    (mesh : TetraMesh) (method : Detector.Method) (ml : Option ℝ) (mi : ℝ) (hlen : ∀ r ∈ d.peaks, r.length = 25)
    (k n : ℕ) (hk : 1 ≤ k) (hn : 1 ≤ n) :
    (∃ e e', D.render env d mesh n method ml mi = .error e ∧ D.render env d mesh ((k * n : ℕ) : ℤ) method ml mi = .error e') ∨
    (∃ o o', D.render env d mesh n method ml mi = .ok (none, o) ∧ D.render env d mesh ((k * n : ℕ) : ℤ) method ml mi = .ok (none, o')) ∨
    ∃ t t' o o', D.render env d mesh n method ml mi = .ok (some t, o) ∧ D.render env d mesh ((k * n : ℕ) : ℤ) method ml mi = .ok (some t', o') ∧
      ∀ f < n, ∀ i j, t f i j = ∑ s ∈ Finset.range k, t' (k * f + s) i j := by
  have hkn : 1 ≤ k * n := Nat.one_le_iff_ne_zero.mpr (by positivity)
  rcases fixed_images D env hs d hcol mesh method ml mi hlen with h | h | ⟨l, -, h⟩
  · left
    obtain ⟨e, he⟩ := h n hn
    obtain ⟨e', he'⟩ := h (k * n) hkn
    exact ⟨e, e', he, he'⟩
  · right; left
    obtain ⟨e, he⟩ := h n hn
    obtain ⟨e', he'⟩ := h (k * n) hkn
    exact ⟨e, e', he, he'⟩
  · right; right
    obtain ⟨t, o, h1, h2⟩ := h n hn
    obtain ⟨t', o', h1', h2'⟩ := h (k * n) hkn
    refine ⟨t, t', o, o', h1, h1', ?_⟩
    intro f hf i j
    rw [h2 f hf, ← group_sum k n f hk hn l i j]
    apply Finset.sum_congr rfl
    intro s hs
    rw [h2' (k * f + s) (by
      have := Finset.mem_range.mp hs
      calc k * f + s < k * f + k := by omega
        _ = k * (f + 1) := by ring
        _ ≤ k * n := Nat.mul_le_mul_left k hf)]

/-- a case: three peaks at times 1/4, 1/2 and 3/4.  With two frames they are in frames 0, 0, 1, with four frames in frames
0, 1, 2, and the pairs of the four frames add up to the two. -/
example (env : RenderEnv) (mesh : TetraMesh) : ∃ t t' o o',
    (imgDet 1 1 (1/10)).render env (imgDict [imgRow 0 0 0 (1/4) 2 0, imgRow 1 1 1 (1/2) 2 0, imgRow 2 2 2 (3/4) 2 0]) mesh 2 .micro none 0 = .ok (some t, o) ∧
    (imgDet 1 1 (1/10)).render env (imgDict [imgRow 0 0 0 (1/4) 2 0, imgRow 1 1 1 (1/2) 2 0, imgRow 2 2 2 (3/4) 2 0]) mesh 4 .micro none 0 = .ok (some t', o') ∧
    (∀ i j, t 0 i j = t' 0 i j + t' 1 i j ∧ t 1 i j = t' 2 i j + t' 3 i j) ∧
    ([1/4, 1/2, 3/4].map (frameOf 2) = [0, 0, 1] ∧ [1/4, 1/2, 3/4].map (frameOf 4) = [0, 1, 2]) := by
  have hlen : ∀ r ∈ (imgDict [imgRow 0 0 0 (1/4) 2 0, imgRow 1 1 1 (1/2) 2 0, imgRow 2 2 2 (3/4) 2 0]).peaks, r.length = 25 := by
    intro r hr
    simp only [imgDict, List.mem_cons, List.not_mem_nil, or_false] at hr
    rcases hr with rfl | rfl | rfl <;> rfl
  have hfr : [1/4, 1/2, 3/4].map (frameOf 2) = [0, 0, 1] ∧ [1/4, 1/2, 3/4].map (frameOf 4) = [0, 1, 2] := by
    have h1 : frameOf 2 (1/4) = 0 := by rw [frameOf_clamp (by norm_num)]; norm_num
    have h2 : frameOf 2 (1/2) = 0 := by rw [frameOf_clamp (by norm_num)]; norm_num
    have h3 : frameOf 2 (3/4) = 1 := by rw [frameOf_clamp (by norm_num)]; norm_num [Int.ceil_eq_iff]
    have h4 : frameOf 4 (1/4) = 0 := by rw [frameOf_clamp (by norm_num)]; norm_num
    have h5 : frameOf 4 (1/2) = 1 := by rw [frameOf_clamp (by norm_num)]; norm_num [Int.ceil_eq_iff]
    have h6 : frameOf 4 (3/4) = 2 := by rw [frameOf_clamp (by norm_num)]; norm_num [Int.ceil_eq_iff]
    simp only [List.map_cons, List.map_nil, h1, h2, h3, h4, h5, h6, and_self]
  have key := C92_coarser_frames (imgDet 1 1 (1/10)) ⟨env.j1, fun l => List.range l.length, env.freeGb, env.hull, env.sample⟩ (fun l => List.Perm.refl _)
    _ rfl mesh .micro none 0 hlen 2 2 (by norm_num) (by norm_num)
  rcases key with ⟨e, e', h, -⟩ | ⟨o, o', h, -⟩ | ⟨t, t', o, o', h, h', ht⟩
  · rw [render_micro_ok hlen] at h; cases h
  · rw [render_micro_ok hlen] at h; cases h
  · refine ⟨t, t', o, o', ?_, ?_, ?_, hfr⟩
    · rw [render_micro_ok hlen] at h ⊢; exact h
    · rw [render_micro_ok hlen] at h' ⊢; exact h'
    · intro i j
      have a := ht 0 (by norm_num) i j
      have b := ht 1 (by norm_num) i j
      rw [Finset.sum_range_succ, Finset.sum_range_one] at a b
      exact ⟨a, b⟩

end XRD
