import Verif.Props.ImgScene
import Mathlib.Analysis.Complex.ExponentialBounds

/-! Property C80: moving the detector in its own plane by whole pixels shifts the image. -/

namespace XRD.Spec
open XRD V3
/-- the displacement of `a` pixels along the first and `b` pixels along the second detector axis -/
noncomputable def pixelStep (D : Detector) (a b : ℤ) : V3 :=
  ((a : ℝ) * D.pz) • ((1 / norm (D.c2 - D.c0)) • (D.c2 - D.c0)) + ((b : ℝ) * D.py) • ((1 / norm (D.c1 - D.c0)) • (D.c1 - D.c0))
/-- two detectors built with the same arguments, except that the second one is moved by minus `a`, `b` pixels along its own axes -/
def ShiftedDetector (D D' : Detector) (a b : ℤ) : Prop :=
  ∃ (c0 c1 c2 : V3) (np : PixArg ℤ) (ps : PixArg ℝ) (sg th : ℝ) (mr : ℤ) (fl fp fs : Bool),
    Detector.new c0 c1 c2 np ps sg th mr fl fp fs = .ok D ∧ dot (c2 - c0) (c1 - c0) = 0 ∧
    Detector.new (c0 - pixelStep D a b) (c1 - pixelStep D a b) (c2 - pixelStep D a b) np ps sg th mr fl fp fs = .ok D'
/-- pixel `(i, j)` is farther from the edges of the detector than the reach of one peak -/
def Interior (D : Detector) (i j : ℕ) : Prop :=
  max 3 (3 * Real.sqrt ((7 / 10) ^ 2 + D.sigma ^ 2) + 1) + 1 / 2 < i ∧
  i + (max 3 (3 * Real.sqrt ((7 / 10) ^ 2 + D.sigma ^ 2) + 1) + 1 / 2) < norm (D.c2 - D.c0) / D.pz ∧
  max 3 (3 * Real.sqrt ((7 / 10) ^ 2 + D.sigma ^ 2) + 1) + 1 / 2 < j ∧
  j + (max 3 (3 * Real.sqrt ((7 / 10) ^ 2 + D.sigma ^ 2) + 1) + 1 / 2) < norm (D.c1 - D.c0) / D.py
/-- `x` is not halfway between two whole numbers -/
def NotHalf (x : ℝ) : Prop := ∀ k : ℤ, x ≠ k + 1 / 2
end XRD.Spec

namespace XRD
open V3 M3 Fl Spec
open scoped Classical

theorem roundEven_add {x : ℝ} {a : ℤ} (h : NotHalf x ∨ Even a) : roundEven (x + a) = roundEven x + a := by
  have e : x + a - ((⌊x⌋ + a : ℤ) : ℝ) = x - ⌊x⌋ := by push_cast; ring
  unfold roundEven
  rw [Int.floor_add_intCast, e]
  split_ifs with h1 h2 h3 h4 h4
  · rfl
  · ring
  · rfl
  · rcases h with h | h
    · exact absurd (show x = ⌊x⌋ + 1 / 2 by linarith) (h _)
    · exact absurd ((Int.dvd_add_left h.two_dvd).1 h3) h4
  · rcases h with h | h
    · exact absurd (show x = ⌊x⌋ + 1 / 2 by linarith) (h _)
    · exact absurd ((Int.dvd_add_left h.two_dvd).2 h4) h3
  · ring

theorem stackOf_flatMap (n h w : ℕ) {α : Type} (l : List α) (g : α → List Deposit) (f i j : ℕ) :
    stackOf n h w (l.flatMap g) f i j = (l.map fun r => stackOf n h w (g r) f i j).sum := by
  induction l with
  | nil => simp [stackOf]
  | cons a l ih => rw [List.flatMap_cons, stackOf_append, ih]; simp

/-- the part of pixel `(i, j)` of frame `f` due to a row, as a sum over the window -/
theorem stackOf_microDeposits {D : Detector} {row : List Fl} {k : ℤ} {n f i j : ℕ} (hk : rcol row 28 = k) (h0 : 0 ≤ k) (h1 : k < n)
    (hi : i < D.nz) (hj : j < D.ny) :
    stackOf n D.nz D.ny (D.microDeposits row) f i j = ((Detector.window D.microRadius).map fun o =>
      let v := D.microW (rcol row 25 / D.pz) (rcol row 26 / D.py) o /
        (((Detector.window D.microRadius).map (D.microW (rcol row 25 / D.pz) (rcol row 26 / D.py))).sum + 1 / 10 ^ 12) *
          (rcol row 29 * rcol row 21)
      if k = f ∧ roundEven (rcol row 25 / D.pz) + o.1 = i ∧ roundEven (rcol row 26 / D.py) + o.2 = j ∧ v > 1 / 10 ^ 6 then v else 0).sum := by
  unfold Detector.microDeposits
  dsimp only
  generalize (List.map (D.microW (rcol row 25 / D.pz) (rcol row 26 / D.py)) (Detector.window D.microRadius)).sum = S
  generalize Detector.window D.microRadius = l
  have f1 : Detector.pyInt (rcol row 28) = k := by rw [hk, pyInt_intCast h0]
  rw [f1]
  induction l with
  | nil => simp [stackOf]
  | cons o l ih =>
    simp only [List.map_cons, List.sum_cons]
    rw [← ih, List.filter_cons]
    set v := D.microW (rcol row 25 / D.pz) (rcol row 26 / D.py) o / (S + 1 / 10 ^ 12) * (rcol row 29 * rcol row 21) with hv
    set z := roundEven (rcol row 25 / D.pz) + o.1 with hz
    set y := roundEven (rcol row 26 / D.py) + o.2 with hy
    by_cases hc : 0 ≤ z ∧ z < D.nz ∧ 0 ≤ y ∧ y < D.ny ∧ v > 1 / 10 ^ 6
    · rw [if_pos (decide_eq_true hc), stackOf_cons]
      congr 1
      obtain ⟨z0, z1, y0, y1, hv1⟩ := hc
      have ht : (⟨k, z, y, v⟩ : Deposit).target n D.nz D.ny = some (k.toNat, z.toNat, y.toNat) := by
        unfold Deposit.target
        dsimp only
        rw [wrapIdx_of_lt h0 h1, wrapIdx_of_lt z0 z1, wrapIdx_of_lt y0 y1]
      rw [ht]
      have : (some (k.toNat, z.toNat, y.toNat) = some (f, i, j)) ↔ (k = f ∧ z = i ∧ y = j ∧ v > 1 / 10 ^ 6) := by
        simp only [Option.some.injEq, Prod.mk.injEq]
        constructor
        · rintro ⟨a, b, c⟩; exact ⟨by omega, by omega, by omega, hv1⟩
        · rintro ⟨a, b, c, -⟩; exact ⟨by omega, by omega, by omega⟩
      by_cases hh : k = f ∧ z = i ∧ y = j ∧ v > 1 / 10 ^ 6
      · rw [if_pos hh, if_pos (this.2 hh)]
      · rw [if_neg hh, if_neg (fun h => hh (this.1 h))]
    · rw [if_neg (by simpa using hc), if_neg, zero_add]
      rintro ⟨-, hz', hy', hv'⟩
      exact hc ⟨by omega, by omega, by omega, by omega, hv'⟩


/-- the detector moved by minus `v` -/
def Detector.movedBack (D : Detector) (v : V3) : Detector := { D with c0 := D.c0 - v, c1 := D.c1 - v, c2 := D.c2 - v }

theorem shifted_eq {D D' : Detector} {a b : ℤ} (h : ShiftedDetector D D' a b) :
    D.Ok ∧ dot (D.c2 - D.c0) (D.c1 - D.c0) = 0 ∧ D' = D.movedBack (pixelStep D a b) := by
  obtain ⟨c0, c1, c2, np, ps, sg, th, mr, fl, fp, fs, h1, ho, h2⟩ := h
  obtain ⟨hok, e0, e1, e2, -⟩ := Detector.new_ok h1
  refine ⟨hok, by rw [e0, e1, e2]; exact ho, ?_⟩
  generalize pixelStep D a b = v at h2
  have d1 : c2 - v - (c0 - v) = c2 - c0 := by abel
  have d2 : c1 - v - (c0 - v) = c1 - c0 := by abel
  unfold Detector.new at h1 h2
  rw [d1, d2] at h2
  dsimp only at h1 h2
  cases hp : pixelSizes (c2 - c0).norm (c1 - c0).norm np ps with
  | error e => rw [hp] at h1; cases h1
  | ok p =>
    rw [hp] at h1 h2
    obtain ⟨pz, py⟩ := p
    dsimp only at h1 h2
    split_ifs at h1 h2 with q1 q2
    obtain rfl := Except.ok.inj h1
    obtain rfl := Except.ok.inj h2
    rfl

theorem step_dots {D : Detector} (hok : D.Ok) (ho : dot (D.c2 - D.c0) (D.c1 - D.c0) = 0) (a b : ℤ) :
    dot (pixelStep D a b) D.zdhat = a * D.pz ∧ dot (pixelStep D a b) D.ydhat = b * D.py ∧ dot (pixelStep D a b) D.normal = 0 := by
  obtain ⟨hzy, hN⟩ := hok.orth ho
  have e : pixelStep D a b = ((a : ℝ) * D.pz) • D.zdhat + ((b : ℝ) * D.py) • D.ydhat := by
    unfold pixelStep; rw [← hok.zmax_eq, ← hok.ymax_eq, ← hok.zdhat, ← hok.ydhat]
  rw [e]
  refine ⟨?_, ?_, ?_⟩
  · rw [dot_add_left, dot_smul_left, dot_smul_left, V3.dot_self, hok.zn, V3.dot_comm D.ydhat, hzy]; ring
  · rw [dot_add_left, dot_smul_left, dot_smul_left, V3.dot_self, hok.yn, hzy]; ring
  · rw [dot_add_left, dot_smul_left, dot_smul_left, hN]
    have z1 : dot D.zdhat (cross D.zdhat D.ydhat) = 0 := by simp only [V3.dot, V3.cross]; ring
    have z2 : dot D.ydhat (cross D.zdhat D.ydhat) = 0 := by simp only [V3.dot, V3.cross]; ring
    rw [z1, z2]; ring

/-- a hit on the moved detector: the coordinates differ by the whole number of pixels -/
theorem shift_intersect {D : Detector} (hok : D.Ok) (ho : dot (D.c2 - D.c0) (D.c1 - D.c0) = 0) (a b : ℤ) (ray src : V3) :
    (∃ zd yd w, D.intersect ray src = (fin zd, fin yd, w) ∧
      (D.movedBack (pixelStep D a b)).intersect ray src = (fin (zd + a * D.pz), fin (yd + b * D.py), w)) ∨
    (¬ IsFinite (D.intersect ray src).1 ∧ ¬ IsFinite ((D.movedBack (pixelStep D a b)).intersect ray src).1) := by
  obtain ⟨s1, s2, s3⟩ := step_dots hok ho a b
  set D' := D.movedBack (pixelStep D a b) with hD'
  have hN : D'.normal = D.normal := rfl
  have hs : D'.sOf ray src = D.sOf ray src := by
    unfold Detector.sOf
    have : D'.c0 - src = D.c0 - src - pixelStep D a b := by
      show D.c0 - pixelStep D a b - src = _; abel
    rw [hN, this, dot_sub_left (D.c0 - src), s3, sub_zero]
  have h3 : (D'.intersect ray src).2.2 = (D.intersect ray src).2.2 := rfl
  by_cases hd : ray.dot D.normal ≠ 0 ∧ 0 ≤ D.sOf ray src
  · left
    obtain ⟨v1, v2⟩ := Detector.intersect_val hd.1 hd.2
    obtain ⟨w1, w2⟩ := Detector.intersect_val (D := D') (ray := ray) (src := src) hd.1 (by rw [hs]; exact hd.2)
    refine ⟨_, _, (D.intersect ray src).2.2, Prod.ext v1 (Prod.ext v2 rfl), Prod.ext ?_ (Prod.ext ?_ h3)⟩
    · rw [w1, hs]
      have : src + D.sOf ray src • ray - D'.c0 = src + D.sOf ray src • ray - D.c0 + pixelStep D a b := by
        show _ - (D.c0 - pixelStep D a b) = _; abel
      rw [this, dot_add_left]
      show fin (_ + dot (pixelStep D a b) D.zdhat) = _
      rw [s1]; rfl
    · rw [w2, hs]
      have : src + D.sOf ray src • ray - D'.c0 = src + D.sOf ray src • ray - D.c0 + pixelStep D a b := by
        show _ - (D.c0 - pixelStep D a b) = _; abel
      rw [this, dot_add_left]
      show fin (_ + dot (pixelStep D a b) D.ydhat) = _
      rw [s2]; rfl
  · right
    constructor
    · intro h; exact hd (Detector.intersect_finite h)
    · intro h
      have := Detector.intersect_finite h
      rw [hN, hs] at this
      exact hd this

theorem sum_filter_map_ite {α : Type} (l : List α) (P : α → Prop) [DecidablePred P] (g : α → ℝ) :
    ((l.filter fun r => P r).map g).sum = (l.map fun r => if P r then g r else 0).sum := by
  induction l with
  | nil => rfl
  | cons a l ih =>
    rw [List.filter_cons]
    by_cases h : P a
    · simp [h, ih]
    · simp [h, ih]

/-- a row is kept by the intersection -/
def Kept (D : Detector) (row : List Fl) : Prop :=
  D.contains ((D.rowIntersect row).getD 0 nan) ((D.rowIntersect row).getD 1 nan) ∧
  Fl.IsFinite (D.rowIntensity row) ∧ Fl.Lt (fin 0) (D.rowIntensity row)

/-- the micro image as a sum over the rows of the table -/
theorem micro_pixel {D : Detector} {d : PeaksDict} (hlen : ∀ r ∈ d.peaks, r.length = 25) (n : ℤ) (f i j : ℕ) :
    stackOf n.toNat D.nz D.ny ((D.peaksIntersection d n).peaks.flatMap D.microDeposits) f i j =
      (d.peaks.map fun q => if Kept D q then stackOf n.toNat D.nz D.ny (D.microDeposits (row30 D n q)) f i j else 0).sum := by
  rw [stackOf_flatMap, peaksIntersection_rows D d n hlen, List.map_map, ← sum_filter_map_ite]
  refine congrArg List.sum (congrArg (List.map _) (List.filter_congr fun r _ => decide_eq_decide.2 Iff.rfl))

/-- the columns of an accepted row used by the micro renderer -/
theorem row30_fields {D : Detector} {n : ℤ} (hn : 1 ≤ n) {q : List Fl} (hl : q.length = 25) {zd yd I : ℝ} {w : Fl}
    (hi : D.rowIntersect q = [fin zd, fin yd, w]) (hI : D.rowIntensity q = fin I) :
    rcol (row30 D n q) 25 = zd ∧ rcol (row30 D n q) 26 = yd ∧ rcol (row30 D n q) 29 = I ∧ rcol (row30 D n q) 21 = rcol q 21 ∧
      ∃ k : ℤ, rcol (row30 D n q) 28 = k ∧ 0 ≤ k ∧ k < n ∧ Detector.rowFrame n q = fin k := by
  have h30 : row30 D n q = q ++ [fin zd, fin yd, w, Detector.rowFrame n q, fin I] := by unfold row30; rw [hi, hI]; simp
  obtain ⟨k, hk, hk0, hk1⟩ := rowFrame_range hn q
  rw [h30]
  refine ⟨?_, ?_, ?_, ?_, k, ?_, hk0, hk1, hk⟩
  · unfold rcol; rw [List.getElem?_append_right (by omega), hl]; rfl
  · unfold rcol; rw [List.getElem?_append_right (by omega), hl]; rfl
  · unfold rcol; rw [List.getElem?_append_right (by omega), hl]; rfl
  · unfold rcol; rw [List.getElem?_append_left (by omega)]
  · unfold rcol; rw [List.getElem?_append_right (by omega), hl]
    simp [hk]

theorem microRadius_le (D : Detector) : (D.microRadius : ℝ) ≤ max 3 (3 * Real.sqrt ((7 / 10) ^ 2 + D.sigma ^ 2) + 1) := by
  unfold Detector.microRadius Detector.microSigma
  push_cast
  apply max_le_max (le_refl _)
  have := Nat.floor_le (show 0 ≤ 3 * Real.sqrt ((7 / 10) ^ 2 + D.sigma ^ 2) by positivity)
  linarith

theorem contains_fin {D : Detector} {z y : ℝ} : D.contains (fin z) (fin y) ↔ 0 ≤ z ∧ z ≤ D.zmax ∧ 0 ≤ y ∧ y ≤ D.ymax := by
  unfold Detector.contains; simp

theorem contains_finite {D : Detector} {z y : Fl} (h : D.contains z y) : IsFinite z ∧ IsFinite y := by
  obtain ⟨h1, h2, h3, h4⟩ := h
  exact ⟨by cases z <;> simp_all [Fl.Le], by cases y <;> simp_all [Fl.Le]⟩

/-- an interior pixel is on the grid, and a peak within reach of it is on the detector -/
theorem interior_facts {D : Detector} (hok : D.Ok) {i j : ℕ} (h : Interior D i j) :
    i < D.nz ∧ j < D.ny ∧ ∀ z y : ℝ, |(i : ℝ) - z / D.pz| ≤ D.microRadius + 1 / 2 → |(j : ℝ) - y / D.py| ≤ D.microRadius + 1 / 2 →
      0 ≤ z ∧ z ≤ D.zmax ∧ 0 ≤ y ∧ y ≤ D.ymax := by
  obtain ⟨h1, h2, h3, h4⟩ := h
  rw [← hok.zmax_eq] at h2
  rw [← hok.ymax_eq] at h4
  have hm := microRadius_le D
  have h3' : (3 : ℝ) ≤ max 3 (3 * Real.sqrt ((7 / 10) ^ 2 + D.sigma ^ 2) + 1) := le_max_left _ _
  generalize max 3 (3 * Real.sqrt ((7 / 10) ^ 2 + D.sigma ^ 2) + 1) = M at *
  refine ⟨?_, ?_, ?_⟩
  · unfold Detector.nz
    exact Nat.lt_ceil.2 (by linarith)
  · unfold Detector.ny
    exact Nat.lt_ceil.2 (by linarith)
  · intro z y hz hy
    rw [abs_le] at hz hy
    have a1 : 0 ≤ z / D.pz := by linarith
    have a2 : z / D.pz ≤ D.zmax / D.pz := by linarith
    have a3 : 0 ≤ y / D.py := by linarith
    have a4 : y / D.py ≤ D.ymax / D.py := by linarith
    rw [div_le_div_iff_of_pos_right hok.pz] at a2
    rw [div_le_div_iff_of_pos_right hok.py] at a4
    refine ⟨?_, a2, ?_, a4⟩
    · by_contra hc; push Not at hc; exact absurd a1 (not_le.2 (div_neg_of_neg_of_pos hc hok.pz))
    · by_contra hc; push Not at hc; exact absurd a3 (not_le.2 (div_neg_of_neg_of_pos hc hok.py))

/-- a row out of reach of a pixel adds nothing to it -/
theorem micro_far {D : Detector} {row : List Fl} {k : ℤ} {n f i j : ℕ} (hk : rcol row 28 = k) (h0 : 0 ≤ k) (h1 : k < n)
    (hfar : ¬ (|(i : ℝ) - rcol row 25 / D.pz| ≤ D.microRadius + 1 / 2 ∧ |(j : ℝ) - rcol row 26 / D.py| ≤ D.microRadius + 1 / 2)) :
    stackOf n D.nz D.ny (D.microDeposits row) f i j = 0 := by
  by_contra hne
  obtain ⟨e, he, ht⟩ := stackOf_ne_zero hne
  obtain ⟨-, ht2, hz, hy, b1, b2⟩ := microDeposits_spec hk h0 h1 he
  rw [ht2] at ht
  simp only [Option.some.injEq, Prod.mk.injEq] at ht
  obtain ⟨-, rfl, rfl⟩ := ht
  have e1 : ((e.z.toNat : ℕ) : ℝ) = (e.z : ℝ) := by exact_mod_cast Int.toNat_of_nonneg hz
  have e2 : ((e.y.toNat : ℕ) : ℝ) = (e.y : ℝ) := by exact_mod_cast Int.toNat_of_nonneg hy
  rw [e1, e2] at hfar
  exact hfar ⟨b1, b2⟩

/-- one row: its part of the shifted pixel is the same on the moved detector -/
theorem micro_shift_row {D : Detector} (hok : D.Ok) (ho : dot (D.c2 - D.c0) (D.c1 - D.c0) = 0) {a b : ℤ} {n : ℤ} (hn : 1 ≤ n)
    {q : List Fl} (hl : q.length = 25) {f i j i' j' : ℕ} (hi : (i' : ℤ) = i + a) (hj : (j' : ℤ) = j + b)
    (hI : Interior D i j) (hI' : Interior (D.movedBack (pixelStep D a b)) i' j')
    (hok' : (D.movedBack (pixelStep D a b)).Ok)
    (hh : Kept D q → (NotHalf (rcol (row30 D n q) 25 / D.pz) ∨ Even a) ∧ (NotHalf (rcol (row30 D n q) 26 / D.py) ∨ Even b)) :
    (if Kept (D.movedBack (pixelStep D a b)) q then
      stackOf n.toNat D.nz D.ny ((D.movedBack (pixelStep D a b)).microDeposits (row30 (D.movedBack (pixelStep D a b)) n q)) f i' j' else 0) =
    (if Kept D q then stackOf n.toNat D.nz D.ny (D.microDeposits (row30 D n q)) f i j else 0) := by
  set D' := D.movedBack (pixelStep D a b) with hD'
  obtain ⟨g1, g2, g3⟩ := interior_facts hok hI
  obtain ⟨g1', g2', g3'⟩ := interior_facts hok' hI'
  have eint : D'.rowIntensity q = D.rowIntensity q := rfl
  -- the two hits
  have hcase : (∃ zd yd w, D.rowIntersect q = [fin zd, fin yd, w] ∧
      D'.rowIntersect q = [fin (zd + a * D.pz), fin (yd + b * D.py), w]) ∨ (¬ Kept D q ∧ ¬ Kept D' q) := by
    unfold Kept Detector.rowIntersect
    cases hK : vecAt q 13 with
    | none => right; constructor <;> (rintro ⟨h, -⟩; exact absurd (contains_finite h).1 (by simp))
    | some K =>
      cases hS : vecAt q 16 with
      | none => right; constructor <;> (rintro ⟨h, -⟩; exact absurd (contains_finite h).1 (by simp))
      | some S =>
        dsimp only
        rcases shift_intersect hok ho a b K S with ⟨zd, yd, w, e1, e2⟩ | ⟨e1, e2⟩
        · left; exact ⟨zd, yd, w, by rw [e1], by rw [hD', e2]⟩
        · right
          exact ⟨fun ⟨h, _⟩ => e1 (contains_finite h).1, fun ⟨h, _⟩ => e2 (contains_finite h).1⟩
  rcases hcase with ⟨zd, yd, w, e1, e2⟩ | ⟨e1, e2⟩
  swap
  · rw [if_neg e1, if_neg e2]
  by_cases hInt : IsFinite (D.rowIntensity q) ∧ Fl.Lt (fin 0) (D.rowIntensity q)
  swap
  · rw [if_neg (fun h => hInt h.2), if_neg (fun h => hInt (eint ▸ h.2))]
  obtain ⟨I, hIq, -⟩ := Fl.lt_zero_fin.mp hInt
  obtain ⟨c25, c26, c29, c21, k, ck, k0, k1, kf⟩ := row30_fields hn hl e1 hIq
  obtain ⟨c25', c26', c29', c21', k', ck', k0', k1', kf'⟩ := row30_fields (D := D') hn hl e2 (eint.trans hIq)
  obtain rfl : k' = k := by
    have := kf'.symm.trans kf
    simpa using this
  have pz0 := hok.pz.ne'
  have py0 := hok.py.ne'
  have q1 : (zd + a * D.pz) / D'.pz = zd / D.pz + a := by show _ / D.pz = _; field_simp
  have q2 : (yd + b * D.py) / D'.py = yd / D.py + b := by show _ / D.py = _; field_simp
  have ei : (i' : ℝ) = i + a := by exact_mod_cast hi
  have ej : (j' : ℝ) = j + b := by exact_mod_cast hj
  by_cases hnear : |(i : ℝ) - zd / D.pz| ≤ D.microRadius + 1 / 2 ∧ |(j : ℝ) - yd / D.py| ≤ D.microRadius + 1 / 2
  · have hk1 : Kept D q := by
      refine ⟨?_, hInt⟩
      rw [e1]; exact contains_fin.2 (g3 _ _ hnear.1 hnear.2)
    have hk2 : Kept D' q := by
      refine ⟨?_, eint ▸ hInt⟩
      rw [e2]
      refine contains_fin.2 (g3' _ _ ?_ ?_)
      · rw [q1, ei, show (i : ℝ) + a - (zd / D.pz + a) = i - zd / D.pz by ring]; exact hnear.1
      · rw [q2, ej, show (j : ℝ) + b - (yd / D.py + b) = j - yd / D.py by ring]; exact hnear.2
    rw [if_pos hk1, if_pos hk2]
    obtain ⟨r1, r2⟩ := hh hk1
    rw [c25] at r1; rw [c26] at r2
    have R1 := roundEven_add r1
    have R2 := roundEven_add r2
    rw [stackOf_microDeposits (D := D) ck k0 (by omega) g1 g2]
    have := stackOf_microDeposits (D := D') (f := f) (n := n.toNat) ck' k0 (by omega) g1' g2'
    refine this.trans ?_
    rw [c25, c26, c29, c21, c25', c26', c29', c21', q1, q2, R1, R2]
    have hW : D'.microW (zd / D.pz + a) (yd / D.py + b) = D.microW (zd / D.pz) (yd / D.py) := by
      funext o
      unfold Detector.microW
      rw [R1, R2]
      show Real.exp (-(_) / (2 * D.microSigma ^ 2)) = _
      congr 3
      push_cast; ring
    rw [hW]
    show (List.map _ (Detector.window D.microRadius)).sum = _
    refine congrArg List.sum (List.map_congr_left fun o _ => ?_)
    dsimp only
    have m : D'.microRadius = D.microRadius := rfl
    rw [m]
    have x1 : roundEven (zd / D.pz) + a + o.1 = (i' : ℤ) ↔ roundEven (zd / D.pz) + o.1 = (i : ℤ) := by omega
    have x2 : roundEven (yd / D.py) + b + o.2 = (j' : ℤ) ↔ roundEven (yd / D.py) + o.2 = (j : ℤ) := by omega
    simp only [x1, x2]
  · have z1 := micro_far (D := D) (n := n.toNat) (f := f) (i := i) (j := j) ck k0 (by omega) (by rw [c25, c26]; exact hnear)
    have z2 : stackOf n.toNat D.nz D.ny (D'.microDeposits (row30 D' n q)) f i' j' = 0 := by
      refine micro_far (D := D') (k := k') ck' k0 (by omega) ?_
      rw [c25', c26', q1, q2, ei, ej, show (i : ℝ) + a - (zd / D.pz + a) = i - zd / D.pz by ring,
        show (j : ℝ) + b - (yd / D.py + b) = j - yd / D.py by ring]
      exact hnear
    rw [z1, z2]; simp

/-- C80 (partial: only when no hit lies exactly halfway between two pixels, or the move is by an even number of pixels): moving the
detector in its own plane by whole pixels moves the micro image by the same number of pixels, away from the edges. -/
theorem C80_micro_shift_partial (D D' : Detector) (a b : ℤ) (hS : ShiftedDetector D D' a b) (env env' : RenderEnv) (d : PeaksDict)
    (mesh mesh' : TetraMesh) (frames : ℤ) (ml ml' : Option ℝ) (mi mi' : ℝ) (hcol : d.columns = peakColumns)
    (hlen : ∀ r ∈ d.peaks, r.length = 25)
    (hhalf : ∀ r ∈ (D.peaksIntersection d (max frames 1)).peaks,
      (NotHalf (val hitColumns r "zd" / D.pz) ∨ Even a) ∧ (NotHalf (val hitColumns r "yd" / D.py) ∨ Even b)) :
    ∃ t t' out out', D.render env d mesh frames .micro ml mi = .ok (some t, out) ∧
      D'.render env' d mesh' frames .micro ml' mi' = .ok (some t', out') ∧
      ∀ f i j i' j' : ℕ, (i' : ℤ) = i + a → (j' : ℤ) = j + b → Interior D i j → Interior D' i' j' → t' f i' j' = t f i j := by
  obtain ⟨hok, ho, hD'⟩ := shifted_eq hS
  have hok' : D'.Ok := by
    obtain ⟨c0, c1, c2, np, ps, sg, th, mr, fl, fp, fs, h1, -, h2⟩ := hS
    exact (Detector.new_ok h2).1
  refine ⟨_, _, _, _, render_micro_ok hlen, render_micro_ok hlen, ?_⟩
  intro f i j i' j' hi hj hI hI'
  have hn : 1 ≤ max frames 1 := le_max_right _ _
  rw [micro_pixel hlen, micro_pixel hlen]
  refine congrArg List.sum (List.map_congr_left fun q hq => ?_)
  subst hD'
  refine micro_shift_row hok ho hn (hlen q hq) hi hj hI hI' hok' ?_
  intro hk
  have hm : row30 D (max frames 1) q ∈ (D.peaksIntersection d (max frames 1)).peaks := by
    rw [peaksIntersection_rows D d _ hlen]
    refine List.mem_map_of_mem (List.mem_filter.2 ⟨hq, ?_⟩)
    exact decide_eq_true hk
  have := hhalf _ hm
  rw [rcol_eq _ "zd" (j := 25) rfl, rcol_eq _ "yd" (j := 26) rfl] at this
  exact this

/-- building a detector commutes with moving its corners -/
theorem new_movedBack {c0 c1 c2 : V3} {np : PixArg ℤ} {ps : PixArg ℝ} {sg th : ℝ} {mr : ℤ} {fl fp fs : Bool} {D : Detector}
    (h1 : Detector.new c0 c1 c2 np ps sg th mr fl fp fs = .ok D) (v : V3) :
    Detector.new (c0 - v) (c1 - v) (c2 - v) np ps sg th mr fl fp fs = .ok (D.movedBack v) := by
  have d1 : c2 - v - (c0 - v) = c2 - c0 := by abel
  have d2 : c1 - v - (c0 - v) = c1 - c0 := by abel
  unfold Detector.new at h1 ⊢
  rw [d1, d2]
  dsimp only at h1 ⊢
  cases hp : pixelSizes (c2 - c0).norm (c1 - c0).norm np ps with
  | error e => rw [hp] at h1; cases h1
  | ok p =>
    rw [hp] at h1
    obtain ⟨pz, py⟩ := p
    dsimp only at h1 ⊢
    split_ifs at h1 ⊢ with q1 q2
    obtain rfl := Except.ok.inj h1
    rfl

theorem imgDet_shifted (p sg th : ℝ) (hp : 0 < p) (a b : ℤ) :
    ShiftedDetector (imgDet p sg th) ((imgDet p sg th).movedBack (pixelStep (imgDet p sg th) a b)) a b := by
  refine ⟨_, _, _, _, _, _, _, _, _, _, _, imgDet_new p sg th hp, ?_, new_movedBack (imgDet_new p sg th hp) _⟩
  simp [V3.dot]

theorem imgDet_interior (c : V3) {i j : ℕ} (hi : 6 ≤ i) (hi' : i ≤ 190) (hj : 6 ≤ j) (hj' : j ≤ 190) :
    Interior ((imgDet 1 1 (1/10)).movedBack c) i j := by
  have h7 : max 3 (3 * Real.sqrt ((7 / 10) ^ 2 + (1:ℝ) ^ 2) + 1) ≤ 5 := by
    have : Real.sqrt ((7 / 10) ^ 2 + (1:ℝ) ^ 2) ≤ 4 / 3 := by rw [Real.sqrt_le_left (by norm_num)]; norm_num
    exact max_le (by norm_num) (by linarith)
  obtain ⟨hok, -⟩ := Detector.new_ok (new_movedBack (imgDet_new 1 1 (1/10) one_pos) c)
  have hz := hok.zmax_eq
  have hy := hok.ymax_eq
  unfold Interior
  rw [← hz, ← hy]
  show max 3 (3 * Real.sqrt ((7 / 10) ^ 2 + (1:ℝ) ^ 2) + 1) + 1 / 2 < _ ∧ _ + (max 3 (3 * Real.sqrt ((7 / 10) ^ 2 + (1:ℝ) ^ 2) + 1) + 1 / 2) < (200:ℝ) / 1 ∧
    max 3 (3 * Real.sqrt ((7 / 10) ^ 2 + (1:ℝ) ^ 2) + 1) + 1 / 2 < _ ∧ _ + (max 3 (3 * Real.sqrt ((7 / 10) ^ 2 + (1:ℝ) ^ 2) + 1) + 1 / 2) < (200:ℝ) / 1
  generalize max 3 (3 * Real.sqrt ((7 / 10) ^ 2 + (1:ℝ) ^ 2) + 1) = M at *
  have a1 : (6:ℝ) ≤ i := by exact_mod_cast hi
  have a2 : (i:ℝ) ≤ 190 := by exact_mod_cast hi'
  have a3 : (6:ℝ) ≤ j := by exact_mod_cast hj
  have a4 : (j:ℝ) ≤ 190 := by exact_mod_cast hj'
  refine ⟨by linarith, by linarith, by linarith, by linarith⟩

theorem imgDet_rowIntersect (p sg th g y z t vol fw : ℝ) :
    (imgDet p sg th).rowIntersect (imgRow g y z t vol fw) = [fin (z + 100), fin (y + 100), fin 0] := by
  unfold Detector.rowIntersect
  have h1 : vecAt (imgRow g y z t vol fw) 13 = some ⟨1, 0, 0⟩ := rfl
  have h2 : vecAt (imgRow g y z t vol fw) 16 = some ⟨0, y, z⟩ := rfl
  rw [h1, h2]
  simp only [imgDet_intersect]

theorem movedBack_zero (D : Detector) : D.movedBack 0 = D := by unfold Detector.movedBack; simp

/-- the hypotheses of `C80_micro_shift_partial` are met: one peak, a move by one pixel and two pixels, and a pixel away from the edges -/
example (env : RenderEnv) (mesh : TetraMesh) :
    ∃ D D' : Detector, ShiftedDetector D D' 1 2 ∧ Interior D 100 100 ∧ Interior D' 101 102 ∧
      (D.peaksIntersection (imgDict [imgRow 0 0 (3/10) (1/2) 2 0]) (max 3 1)).peaks ≠ [] ∧
      ∀ r ∈ (D.peaksIntersection (imgDict [imgRow 0 0 (3/10) (1/2) 2 0]) (max 3 1)).peaks,
        (NotHalf (val hitColumns r "zd" / D.pz) ∨ Even (1:ℤ)) ∧ (NotHalf (val hitColumns r "yd" / D.py) ∨ Even (2:ℤ)) := by
  have hp := imgDict_kept 1 1 (1/10) 3 0 0 (3/10) (1/2) 2 0 (by norm_num) (by rw [abs_le]; norm_num) [] (by simp)
  have hp0 : ((imgDet 1 1 (1/10)).peaksIntersection (imgDict []) 3).peaks = [] := rfl
  rw [hp0] at hp
  refine ⟨imgDet 1 1 (1/10), _, imgDet_shifted 1 1 (1/10) one_pos 1 2, ?_, imgDet_interior _ (by norm_num) (by norm_num) (by norm_num)
    (by norm_num), ?_, ?_⟩
  · have := imgDet_interior 0 (i := 100) (j := 100) (by norm_num) (by norm_num) (by norm_num) (by norm_num)
    rwa [movedBack_zero] at this
  · rw [show max (3:ℤ) 1 = 3 from rfl, hp]; simp
  · rw [show max (3:ℤ) 1 = 3 from rfl, hp]
    intro r hr
    rw [List.mem_singleton] at hr
    subst hr
    refine ⟨Or.inl ?_, Or.inr ⟨1, rfl⟩⟩
    have e : val hitColumns (imgHit 3 0 0 (3/10) (1/2) 2 0) "zd" = 3/10 + 100 := rfl
    rw [e]
    intro k hk
    have : (imgDet 1 1 (1/10)).pz = 1 := rfl
    rw [this] at hk
    have h1 : (k : ℝ) < 100 := by linarith
    have h2 : (99 : ℝ) < k := by linarith
    have h1 : k < 100 := by exact_mod_cast h1
    have h2 : 99 < k := by exact_mod_cast h2
    omega

theorem img_radius : (imgDet 1 1 (1/10)).microRadius = 4 := by
  unfold Detector.microRadius Detector.microSigma
  show max 3 (⌊3 * Real.sqrt ((7 / 10) ^ 2 + (1:ℝ) ^ 2)⌋₊ + 1) = 4
  have h1 : Real.sqrt ((7 / 10) ^ 2 + (1:ℝ) ^ 2) < 4 / 3 := by rw [Real.sqrt_lt' (by norm_num)]; norm_num
  have h2 : 1 ≤ Real.sqrt ((7 / 10) ^ 2 + (1:ℝ) ^ 2) := by rw [Real.one_le_sqrt]; norm_num
  have : ⌊3 * Real.sqrt ((7 / 10) ^ 2 + (1:ℝ) ^ 2)⌋₊ = 3 := by
    rw [Nat.floor_eq_iff (by positivity)]
    constructor <;> push_cast <;> linarith
  rw [this]; rfl

/-- the peak of the counterexample -/
noncomputable def halfRow : List Fl := imgRow 0 0 (1/2) (1/2) (10^6) 0

/-- C80 fails without the restriction: a hit exactly halfway between two pixels is rounded to the even one, so that moving the detector
by one pixel moves the whole spot by two; a pixel that was lit is dark after the move. -/
theorem C80_micro_shift_fails (env : RenderEnv) (mesh : TetraMesh) : ∃ (D D' : Detector) (d : PeaksDict) (t t' : Stack) (out out' : PeaksDict),
    ShiftedDetector D D' 1 0 ∧ d.columns = peakColumns ∧ (∀ r ∈ d.peaks, r.length = 25) ∧
    D.render env d mesh 1 .micro none (1/1000) = .ok (some t, out) ∧ D'.render env d mesh 1 .micro none (1/1000) = .ok (some t', out') ∧
    Interior D 96 100 ∧ Interior D' 97 100 ∧ 0 < t 0 96 100 ∧ t' 0 97 100 = 0 := by
  set D := imgDet 1 1 (1/10) with hD
  obtain ⟨hok, ho, -⟩ := shifted_eq (imgDet_shifted 1 1 (1/10) one_pos 1 0)
  set D' := D.movedBack (pixelStep D 1 0) with hD'
  have hl : halfRow.length = 25 := rfl
  have hlen : ∀ r ∈ (imgDict [halfRow]).peaks, r.length = 25 := by
    intro r hr; simp only [imgDict, List.mem_singleton] at hr; subst hr; rfl
  have I1 : Interior D 96 100 := by
    have := imgDet_interior 0 (i := 96) (j := 100) (by norm_num) (by norm_num) (by norm_num) (by norm_num)
    rwa [movedBack_zero] at this
  have I2 : Interior D' 97 100 := imgDet_interior _ (by norm_num) (by norm_num) (by norm_num) (by norm_num)
  have hok' : D'.Ok := (Detector.new_ok (new_movedBack (imgDet_new 1 1 (1/10) one_pos) _)).1
  have e1 : D.rowIntersect halfRow = [fin (1/2 + 100), fin (0 + 100), fin 0] := imgDet_rowIntersect 1 1 (1/10) 0 0 (1/2) (1/2) (10^6) 0
  have hint : D.rowIntensity halfRow = fin 1 := by
    rw [rowIntensity_spec]
    have h1 : halfRow.getD 5 nan = fin 1 := rfl
    have h2 : halfRow.getD 20 nan = fin 1 := rfl
    have h3 : halfRow.getD 19 nan = fin 1 := rfl
    rw [h1, h2, h3]
    unfold Spec.intensity
    rw [hD]
    simp [imgDet]
  have e2 : D'.rowIntersect halfRow = [fin (1/2 + 100 + 1), fin (0 + 100), fin 0] := by
    have hx := shift_intersect hok ho 1 0 ⟨1, 0, 0⟩ ⟨0, 0, 1/2⟩
    have hy := imgDet_intersect 1 1 (1/10) 0 (1/2)
    rcases hx with ⟨zd, yd, w, x1, x2⟩ | ⟨x1, -⟩
    · rw [hy] at x1
      simp only [Prod.mk.injEq, Fl.fin.injEq] at x1
      obtain ⟨rfl, rfl, rfl⟩ := x1
      show [(D'.intersect ⟨1, 0, 0⟩ ⟨0, 0, 1/2⟩).1, (D'.intersect ⟨1, 0, 0⟩ ⟨0, 0, 1/2⟩).2.1, (D'.intersect ⟨1, 0, 0⟩ ⟨0, 0, 1/2⟩).2.2] = _
      rw [hD', x2]
      have : (imgDet 1 1 (1/10)).pz = 1 := rfl
      rw [this]
      simp
    · rw [hy] at x1; simp at x1
  obtain ⟨c25, c26, c29, c21, k, ck, k0, k1, kf⟩ := row30_fields (n := 1) le_rfl hl e1 hint
  obtain ⟨c25', c26', c29', c21', k', ck', k0', k1', kf'⟩ := row30_fields (D := D') (n := 1) le_rfl hl e2 hint
  obtain rfl : k = 0 := by omega
  obtain rfl : k' = 0 := by omega
  obtain ⟨g1, g2, g3⟩ := interior_facts hok I1
  obtain ⟨g1', g2', g3'⟩ := interior_facts hok' I2
  have p1 : D.pz = 1 := rfl
  have p2 : D.py = 1 := rfl
  have p3 : D'.pz = 1 := rfl
  have p4 : D'.py = 1 := rfl
  have z1 : D.zmax = 200 := rfl
  have z2 : D.ymax = 200 := rfl
  have z3 : D'.zmax = 200 := rfl
  have z4 : D'.ymax = 200 := rfl
  have r1 : roundEven ((1/2 + 100 : ℝ) / 1) = 100 := by
    have : ⌊(1/2 + 100 : ℝ) / 1⌋ = 100 := by rw [Int.floor_eq_iff]; norm_num
    unfold roundEven; rw [this]; norm_num
  have r2 : roundEven ((0 + 100 : ℝ) / 1) = 100 := by
    have : ⌊(0 + 100 : ℝ) / 1⌋ = 100 := by rw [Int.floor_eq_iff]; norm_num
    unfold roundEven; rw [this]; norm_num
  have r3 : roundEven ((1/2 + 100 + 1 : ℝ) / 1) = 102 := by
    have : ⌊(1/2 + 100 + 1 : ℝ) / 1⌋ = 101 := by rw [Int.floor_eq_iff]; norm_num
    unfold roundEven; rw [this]; norm_num
  have hv : rcol halfRow 21 = 10^6 := rfl
  have K1 : Kept D halfRow := ⟨by rw [e1]; exact contains_fin.2 ⟨by norm_num, by rw [z1]; norm_num, by norm_num, by rw [z2]; norm_num⟩, by
    rw [hint]; simp⟩
  have K2 : Kept D' halfRow := ⟨by rw [e2]; exact contains_fin.2 ⟨by norm_num, by rw [z3]; norm_num, by norm_num, by rw [z4]; norm_num⟩, by
    show IsFinite (D.rowIntensity halfRow) ∧ Fl.Lt (fin 0) (D.rowIntensity halfRow)
    rw [hint]; simp⟩
  refine ⟨D, D', imgDict [halfRow], _, _, _, _, imgDet_shifted 1 1 (1/10) one_pos 1 0, rfl, hlen, render_micro_ok hlen, render_micro_ok hlen,
    I1, I2, ?_, ?_⟩
  · rw [micro_pixel hlen]
    show 0 < (List.map _ [halfRow]).sum
    rw [List.map_cons, List.map_nil, List.sum_cons, List.sum_nil, add_zero, if_pos K1]
    show 0 < stackOf 1 D.nz D.ny (D.microDeposits (row30 D 1 halfRow)) 0 96 100
    rw [stackOf_microDeposits ck le_rfl (by norm_num) g1 g2, c25, c26, c29, c21, p1, p2, r1, r2, hv, img_radius]
    rw [← hD]
    set S := ((Detector.window 4).map (D.microW ((1/2 + 100 : ℝ) / 1) ((0 + 100 : ℝ) / 1))).sum with hS
    have hS0 : 0 ≤ S := window_sum_nonneg _ _ _ _
    have hS1 : S ≤ 81 := by
      have : ∀ l : List (ℤ × ℤ), (l.map (D.microW ((1/2 + 100 : ℝ) / 1) ((0 + 100 : ℝ) / 1))).sum ≤ l.length := by
        intro l
        induction l with
        | nil => simp
        | cons o l ih =>
          rw [List.map_cons, List.sum_cons, List.length_cons]
          have : D.microW ((1/2 + 100 : ℝ) / 1) ((0 + 100 : ℝ) / 1) o ≤ 1 := by
            unfold Detector.microW
            rw [Real.exp_le_one_iff]
            exact div_nonpos_of_nonpos_of_nonneg (by simp only [neg_nonpos]; positivity) (by positivity)
          push_cast; linarith
      have h81 := this (Detector.window 4)
      rw [show (Detector.window 4).length = 81 from by decide] at h81
      exact le_of_le_of_eq h81 (by norm_num)
    have hw : 1 / 2187 ≤ D.microW ((1/2 + 100 : ℝ) / 1) ((0 + 100 : ℝ) / 1) (-4, 0) := by
      unfold Detector.microW Detector.microSigma
      rw [r1, r2, Real.sq_sqrt (by positivity)]
      have : D.sigma = 1 := rfl
      rw [this]
      have h3 : Real.exp (-7) ≤ Real.exp (-(((((100 + (-4 : ℤ) : ℤ) : ℝ)) - (1/2 + 100) / 1) ^ 2 + (((100 + (0:ℤ) : ℤ) : ℝ) - (0 + 100) / 1) ^ 2) /
          (2 * ((7 / 10) ^ 2 + (1:ℝ) ^ 2))) := by
        apply Real.exp_le_exp.2
        push_cast; norm_num
      refine le_trans ?_ h3
      have h4 : Real.exp (-7) = (Real.exp (-1)) ^ 7 := by rw [← Real.exp_nat_mul]; norm_num
      have h5 : 1 / 3 ≤ Real.exp (-1) := by
        rw [Real.exp_neg, one_div]
        exact inv_anti₀ (Real.exp_pos 1) (by linarith [Real.exp_one_lt_three])
      rw [h4]
      calc (1 / 2187 : ℝ) = (1 / 3) ^ 7 := by norm_num
        _ ≤ _ := pow_le_pow_left₀ (by norm_num) h5 7
    have hterm : (1 : ℝ) / 10 ^ 6 < D.microW ((1/2 + 100 : ℝ) / 1) ((0 + 100 : ℝ) / 1) (-4, 0) / (S + 1 / 10 ^ 12) * (1 * 10 ^ 6) := by
      have h1 : 1 / 2187 / 82 ≤ D.microW ((1/2 + 100 : ℝ) / 1) ((0 + 100 : ℝ) / 1) (-4, 0) / (S + 1 / 10 ^ 12) :=
        div_le_div₀ (by linarith) hw (by positivity) (by linarith [show (1:ℝ) / 10 ^ 12 ≤ 1 by norm_num])
      have h2 : (1 : ℝ) / 10 ^ 6 < 1 / 2187 / 82 * (1 * 10 ^ 6) := by norm_num
      nlinarith
    refine lt_of_lt_of_le (lt_trans (by norm_num) hterm) ?_
    have hmem : ((-4, 0) : ℤ × ℤ) ∈ Detector.window 4 := by rw [mem_window]; simp
    refine le_trans (le_of_eq ?_) (List.single_le_sum ?_ _ (List.mem_map_of_mem hmem))
    · dsimp only
      rw [if_pos ⟨by norm_num, by norm_num, by norm_num, hterm⟩]
    · intro x hx
      obtain ⟨o, -, rfl⟩ := List.mem_map.mp hx
      dsimp only
      split_ifs with hc
      · exact (lt_trans (by norm_num) hc.2.2.2).le
      · exact le_rfl
  · rw [micro_pixel hlen]
    show (List.map _ [halfRow]).sum = 0
    rw [List.map_cons, List.map_nil, List.sum_cons, List.sum_nil, add_zero, if_pos K2]
    show stackOf 1 D'.nz D'.ny (D'.microDeposits (row30 D' 1 halfRow)) 0 97 100 = 0
    rw [stackOf_microDeposits ck' le_rfl (by norm_num) g1' g2', c25', c26', p3, p4, r3]
    apply List.sum_eq_zero
    intro x hx
    obtain ⟨o, ho', rfl⟩ := List.mem_map.mp hx
    rw [mem_window, show D'.microRadius = 4 from img_radius] at ho'
    dsimp only
    rw [if_neg]
    rintro ⟨-, h, -⟩
    have := (abs_le.1 ho'.1).1
    push_cast at *
    omega

end XRD
