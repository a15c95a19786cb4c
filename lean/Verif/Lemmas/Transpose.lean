import Verif.Lemmas.Conv
import Verif.Props.Detector2
import Verif.Props.Shift

/-! Lemmas about a detector whose two sides are named the other way round. -/

namespace XRD
open V3 M3 Fl Spec
open scoped Classical

/-- the argument with its two entries exchanged -/
def PixArg.swap {α : Type} : PixArg α → PixArg α
  | .absent => .absent
  | .both v => .both v
  | .pair z y => .pair y z

/-- the detector with its sides named the other way round -/
noncomputable def Detector.flip (D : Detector) : Detector :=
  { D with c1 := D.c2, c2 := D.c1, zmax := D.ymax, ymax := D.zmax, pz := D.py, py := D.pz, zdhat := D.ydhat, ydhat := D.zdhat,
           normal := -D.normal }

theorem cross_anti (u v : V3) : cross u v = -cross v u := by
  ext <;> simp [V3.cross] <;> ring

theorem pixelSizes_swap {a b p q : ℝ} {np : PixArg ℤ} {ps : PixArg ℝ} (h : pixelSizes a b np ps = .ok (p, q)) :
    pixelSizes b a np.swap ps.swap = .ok (q, p) := by
  cases np <;> cases ps <;> simp [pixelSizes, PixArg.swap] at h ⊢ <;> (obtain ⟨rfl, rfl⟩ := h; simp)

theorem new_flip {c0 c1 c2 : V3} {np : PixArg ℤ} {ps : PixArg ℝ} {sg th : ℝ} {mr : ℤ} {fl fp fs : Bool} {D : Detector}
    (h : Detector.new c0 c1 c2 np ps sg th mr fl fp fs = .ok D) :
    Detector.new c0 c2 c1 np.swap ps.swap sg th mr fl fp fs = .ok D.flip := by
  unfold Detector.new at h ⊢
  dsimp only at h ⊢
  cases hp : pixelSizes (c2 - c0).norm (c1 - c0).norm np ps with
  | error e => rw [hp] at h; cases h
  | ok p =>
    obtain ⟨pz, py⟩ := p
    rw [hp] at h
    rw [pixelSizes_swap hp]
    dsimp only at h ⊢
    rw [cross_anti ((1 / (c1 - c0).norm) • (c1 - c0))]
    have hn : norm (-cross ((1 / (c2 - c0).norm) • (c2 - c0)) ((1 / (c1 - c0).norm) • (c1 - c0))) =
        norm (cross ((1 / (c2 - c0).norm) • (c2 - c0)) ((1 / (c1 - c0).norm) • (c1 - c0))) := by
      rw [norm_eq_iff]; simp [nsq, V3.dot]
    rw [hn]
    split_ifs at h with q1 q2
    rw [if_neg, if_neg]
    · obtain rfl := Except.ok.inj h
      unfold Detector.flip
      simp only [Except.ok.injEq, Detector.mk.injEq, true_and, and_true]
      ext <;> simp
    · tauto
    · intro h0
      apply q1
      have := congrArg (fun v : V3 => -v) h0
      simpa using this

/-- finite or not is the same for both coordinates -/
theorem intersect_finite_iff {D : Detector} {ray src : V3} :
    (IsFinite (D.intersect ray src).1 ↔ ray.dot D.normal ≠ 0 ∧ 0 ≤ D.sOf ray src) ∧
    (IsFinite (D.intersect ray src).2.1 ↔ ray.dot D.normal ≠ 0 ∧ 0 ≤ D.sOf ray src) := by
  have h12 : IsFinite (D.intersect ray src).2.1 → IsFinite (D.intersect ray src).1 := by
    intro h
    unfold Detector.intersect at h ⊢
    dsimp only at h ⊢
    obtain ⟨a, b, c⟩ := Detector.project_finite h
    generalize Detector.alongRay src.x ray.x _ = X at *
    generalize Detector.alongRay src.y ray.y _ = Y at *
    generalize Detector.alongRay src.z ray.z _ = Z at *
    cases X <;> cases Y <;> cases Z <;> simp_all [IsFinite]
    rw [Detector.project_fin]; trivial
  refine ⟨⟨Detector.intersect_finite, ?_⟩, ⟨fun h => Detector.intersect_finite (h12 h), ?_⟩⟩
  · rintro ⟨a, b⟩; rw [(Detector.intersect_val a b).1]; trivial
  · rintro ⟨a, b⟩; rw [(Detector.intersect_val a b).2]; trivial

theorem flip_sOf (D : Detector) (ray src : V3) : D.flip.sOf ray src = D.sOf ray src := by
  unfold Detector.sOf
  show (D.c0 - src).dot (-D.normal) / ray.dot (-D.normal) = _
  rw [dot_neg_right, dot_neg_right, neg_div_neg_eq]

theorem flip_intersect (D : Detector) (ray src : V3) :
    (∃ zd yd, (D.intersect ray src).1 = fin zd ∧ (D.intersect ray src).2.1 = fin yd ∧
      (D.flip.intersect ray src).1 = fin yd ∧ (D.flip.intersect ray src).2.1 = fin zd) ∨
    (¬ IsFinite (D.intersect ray src).1 ∧ ¬ IsFinite (D.intersect ray src).2.1 ∧
      ¬ IsFinite (D.flip.intersect ray src).1 ∧ ¬ IsFinite (D.flip.intersect ray src).2.1) := by
  by_cases hd : ray.dot D.normal ≠ 0 ∧ 0 ≤ D.sOf ray src
  · left
    obtain ⟨v1, v2⟩ := Detector.intersect_val hd.1 hd.2
    obtain ⟨w1, w2⟩ := Detector.intersect_val (D := D.flip) (ray := ray) (src := src)
      (by show ray.dot (-D.normal) ≠ 0; rw [dot_neg_right]; exact neg_ne_zero.mpr hd.1) (by rw [flip_sOf]; exact hd.2)
    rw [flip_sOf] at w1 w2
    exact ⟨_, _, v1, v2, w1, w2⟩
  · right
    have hd' : ¬ (ray.dot D.flip.normal ≠ 0 ∧ 0 ≤ D.flip.sOf ray src) := by
      rw [flip_sOf]
      show ¬ (ray.dot (-D.normal) ≠ 0 ∧ _)
      rw [dot_neg_right]
      intro h; exact hd ⟨neg_ne_zero.mp h.1, h.2⟩
    exact ⟨fun h => hd (intersect_finite_iff.1.mp h), fun h => hd (intersect_finite_iff.2.mp h),
      fun h => hd' (intersect_finite_iff.1.mp h), fun h => hd' (intersect_finite_iff.2.mp h)⟩

/-- the incident angle of a ray that meets the plane -/
theorem flip_angle {D : Detector} (hok : D.Ok) {ray : V3} (src : V3) (hr : ray ≠ 0) :
    ∃ a : ℝ, (D.intersect ray src).2.2 = fin a ∧ (D.flip.intersect ray src).2.2 = fin (180 - a) := by
  have hn1 : D.normal.norm = 1 := norm_eq_one.mpr hok.normal_nsq
  have hn2 : (-D.normal).norm = 1 := by
    rw [norm_eq_one, ← hok.normal_nsq]; simp [nsq, V3.dot]
  have hr0 : ray.norm ≠ 0 := (V3.norm_pos.2 hr).ne'
  have hpi := Real.pi_pos
  set c := -(dot ray D.normal / ray.norm) with hc
  have hb : |dot ray D.normal| ≤ ray.norm := by
    have h1 : dot ray D.normal ^ 2 ≤ ray.norm ^ 2 := by
      have := lagrange ray D.normal
      have h0 := nsq_nonneg (cross ray D.normal)
      rw [this, hok.normal_nsq] at h0
      rw [V3.norm_sq]; linarith
    exact abs_le_of_sq_le_sq h1 (V3.norm_nonneg _)
  have hr1 := V3.norm_pos.2 hr
  obtain ⟨b1, b2⟩ := abs_le.mp hb
  have hc1 : -1 ≤ c := by rw [hc, neg_le_neg_iff, div_le_one hr1]; exact b2
  have hc2 : c ≤ 1 := by rw [hc, neg_le, le_div_iff₀ hr1]; linarith
  have e1 : (D.intersect ray src).2.2 = fin (Real.arccos c * (180 / Real.pi)) := by
    unfold Detector.intersect
    dsimp only
    simp only [hn1, Fl.div_fin_ne hr0, Fl.div_fin_ne one_ne_zero, Fl.neg_fin, Fl.mul_fin, Fl.add_fin]
    have e : ray.x / ray.norm * -(D.normal.x / 1) + ray.y / ray.norm * -(D.normal.y / 1) + ray.z / ray.norm * -(D.normal.z / 1) = c := by
      rw [hc]; simp only [V3.dot]; field_simp; ring
    rw [e, Fl.arccos_fin hc1 hc2, Fl.mul_fin]
  have e2 : (D.flip.intersect ray src).2.2 = fin (Real.arccos (-c) * (180 / Real.pi)) := by
    unfold Detector.intersect Detector.flip
    dsimp only
    simp only [hn2, Fl.div_fin_ne hr0, Fl.div_fin_ne one_ne_zero, Fl.neg_fin, Fl.mul_fin, Fl.add_fin]
    have e : ray.x / ray.norm * -((-D.normal).x / 1) + ray.y / ray.norm * -((-D.normal).y / 1) + ray.z / ray.norm * -((-D.normal).z / 1) = -c := by
      rw [hc]; simp only [V3.dot, V3.neg_x, V3.neg_y, V3.neg_z]; field_simp
    rw [e, Fl.arccos_fin (by linarith) (by linarith), Fl.mul_fin]
  refine ⟨_, e1, ?_⟩
  rw [e2, Real.arccos_neg]
  congr 1
  field_simp

theorem contains_flip (D : Detector) (z y : Fl) : D.flip.contains z y ↔ D.contains y z := by
  unfold Detector.contains Detector.flip
  tauto

/-! ### rows of hits -/

theorem flip_intensity (D : Detector) (q : List Fl) : D.flip.rowIntensity q = D.rowIntensity q := rfl

theorem flip_rowIntersect (D : Detector) (q : List Fl) :
    (∃ zd yd w w', D.rowIntersect q = [fin zd, fin yd, w] ∧ D.flip.rowIntersect q = [fin yd, fin zd, w']) ∨
    (¬ Kept D q ∧ ¬ Kept D.flip q) := by
  unfold Kept
  unfold Detector.rowIntersect
  split
  · rename_i k s _ _
    rcases flip_intersect D k s with ⟨zd, yd, h1, h2, h3, h4⟩ | ⟨h1, h2, h3, h4⟩
    · left
      refine ⟨zd, yd, (D.intersect k s).2.2, (D.flip.intersect k s).2.2, ?_, ?_⟩
      · simp only [h1, h2]
      · simp only [h3, h4]
    · right
      exact ⟨fun h => h1 (contains_finite h.1).1, fun h => h3 (contains_finite h.1).1⟩
  · right
    exact ⟨fun h => absurd (contains_finite h.1).1 (by simp [IsFinite]), fun h => absurd (contains_finite h.1).1 (by simp [IsFinite])⟩

theorem kept_flip (D : Detector) (q : List Fl) : Kept D.flip q ↔ Kept D q := by
  rcases flip_rowIntersect D q with ⟨zd, yd, w, w', h1, h2⟩ | ⟨h1, h2⟩
  · unfold Kept
    rw [h1, h2, flip_intensity]
    show D.flip.contains (fin yd) (fin zd) ∧ _ ↔ D.contains (fin zd) (fin yd) ∧ _
    rw [contains_flip]
  · tauto

/-- the rows of a peak on the two detectors -/
structure FlipRow (r r' : List Fl) : Prop where
  zd : rcol r' 25 = rcol r 26
  yd : rcol r' 26 = rcol r 25
  rest : ∀ j, j ≠ 25 → j ≠ 26 → j ≠ 27 → rcol r' j = rcol r j

theorem flipRow_of_kept {D : Detector} {n : ℤ} {q : List Fl} (hl : q.length = 25) (hk : Kept D q) :
    FlipRow (row30 D n q) (row30 D.flip n q) := by
  rcases flip_rowIntersect D q with ⟨zd, yd, w, w', h1, h2⟩ | ⟨h1, -⟩
  · have e : row30 D n q = q ++ [fin zd, fin yd, w, Detector.rowFrame n q, D.rowIntensity q] := by unfold row30; rw [h1]; simp
    have e' : row30 D.flip n q = q ++ [fin yd, fin zd, w', Detector.rowFrame n q, D.rowIntensity q] := by
      unfold row30; rw [h2, flip_intensity]; simp
    rw [e, e']
    refine ⟨?_, ?_, ?_⟩
    · unfold rcol; rw [List.getElem?_append_right (by omega), List.getElem?_append_right (by omega), hl]; rfl
    · unfold rcol; rw [List.getElem?_append_right (by omega), List.getElem?_append_right (by omega), hl]; rfl
    · intro j a b c
      unfold rcol
      by_cases hj : j < 25
      · rw [List.getElem?_append_left (by omega), List.getElem?_append_left (by omega)]
      · rw [List.getElem?_append_right (by omega), List.getElem?_append_right (by omega), hl]
        obtain ⟨m, rfl⟩ : ∃ m, j = 28 + m := ⟨j - 28, by omega⟩
        rw [show 28 + m - 25 = m + 3 by omega]
        rfl
  · exact absurd hk h1

theorem flip_hits (D : Detector) (d : PeaksDict) (n : ℤ) (hlen : ∀ r ∈ d.peaks, r.length = 25) :
    (D.flip.peaksIntersection d n).peaks = (d.peaks.filter fun q => Kept D q).map (row30 D.flip n) ∧
    (D.peaksIntersection d n).peaks = (d.peaks.filter fun q => Kept D q).map (row30 D n) := by
  constructor
  · rw [peaksIntersection_rows D.flip d n hlen]
    congr 1
    exact List.filter_congr fun q _ => decide_eq_decide.2 (kept_flip D q)
  · rw [peaksIntersection_rows D d n hlen]
    congr 1
    exact List.filter_congr fun q _ => decide_eq_decide.2 Iff.rfl

/-! ### micro -/

theorem window_swap (r : ℕ) : (Detector.window r).Perm ((Detector.window r).map Prod.swap) := by
  have nd : (Detector.window r).Nodup := by
    unfold Detector.window
    rw [List.nodup_flatMap]
    constructor
    · intro a _
      refine List.Nodup.map ?_ List.nodup_range
      intro b b' h
      simpa using h
    · refine List.Pairwise.imp_of_mem ?_ List.nodup_range
      intro a b ha hb hab
      simp only [Function.onFun, List.disjoint_left, List.mem_map]
      rintro x ⟨c, -, rfl⟩ ⟨c', -, h⟩
      apply hab
      have := congrArg Prod.fst h
      simp at this
      exact this.symm
  refine (List.perm_ext_iff_of_nodup nd (nd.map Prod.swap_injective)).mpr ?_
  intro o
  simp only [List.mem_map, mem_window, Prod.exists, Prod.swap_prod_mk]
  constructor
  · rintro ⟨h1, h2⟩; exact ⟨o.2, o.1, ⟨h2, h1⟩, rfl⟩
  · rintro ⟨a, b, ⟨h1, h2⟩, rfl⟩; exact ⟨h2, h1⟩

theorem microW_flip (D : Detector) (a b : ℝ) (o : ℤ × ℤ) : D.flip.microW b a o.swap = D.microW a b o := by
  unfold Detector.microW Detector.microSigma
  show Real.exp (-((((roundEven b + o.2 : ℤ) : ℝ) - b) ^ 2 + (((roundEven a + o.1 : ℤ) : ℝ) - a) ^ 2) / _) = _
  rw [add_comm]
  rfl

/-- the transposed deposit -/
def Deposit.flip (d : Deposit) : Deposit := ⟨d.f, d.y, d.z, d.v⟩

theorem target_flip (d : Deposit) (n h w f i j : ℕ) : d.flip.target n w h = some (f, j, i) ↔ d.target n h w = some (f, i, j) := by
  unfold Deposit.target Deposit.flip
  dsimp only
  cases wrapIdx d.f n <;> cases wrapIdx d.z h <;> cases wrapIdx d.y w <;> simp [and_comm]

theorem microDeposits_flip {D : Detector} {r r' : List Fl} (h : FlipRow r r') :
    (D.flip.microDeposits r').Perm ((D.microDeposits r).map Deposit.flip) := by
  unfold Detector.microDeposits
  dsimp only
  rw [h.zd, h.yd, h.rest 28 (by omega) (by omega) (by omega), h.rest 29 (by omega) (by omega) (by omega), h.rest 21 (by omega) (by omega) (by omega)]
  show (List.filter _ ((Detector.window D.microRadius).map _)).Perm _
  have hp : D.flip.pz = D.py := rfl
  have hq : D.flip.py = D.pz := rfl
  have hz : D.flip.nz = D.ny := rfl
  have hy : D.flip.ny = D.nz := rfl
  have hrad : D.flip.microRadius = D.microRadius := rfl
  rw [hp, hq, hz, hy, hrad]
  have ht : ((Detector.window D.microRadius).map (D.flip.microW (rcol r 26 / D.py) (rcol r 25 / D.pz))).sum =
      ((Detector.window D.microRadius).map (D.microW (rcol r 25 / D.pz) (rcol r 26 / D.py))).sum := by
    rw [((window_swap D.microRadius).map _).sum_eq, List.map_map]
    refine congrArg List.sum (List.map_congr_left fun o _ => ?_)
    exact microW_flip D _ _ o
  rw [ht]
  refine (((window_swap D.microRadius).map _).filter _).trans (List.Perm.of_eq ?_)
  rw [List.map_map, List.filter_map, List.filter_map, List.map_map]
  rw [List.filter_congr (q := ((fun d : Deposit => decide (0 ≤ d.z ∧ d.z < D.nz ∧ 0 ≤ d.y ∧ d.y < D.ny ∧ d.v > 1 / 10 ^ 6)) ∘ fun o : ℤ × ℤ =>
      (⟨Detector.pyInt (rcol r 28), roundEven (rcol r 25 / D.pz) + o.1, roundEven (rcol r 26 / D.py) + o.2,
      D.microW (rcol r 25 / D.pz) (rcol r 26 / D.py) o / (((Detector.window D.microRadius).map (D.microW (rcol r 25 / D.pz) (rcol r 26 / D.py))).sum + 1 / 10 ^ 12) *
        (rcol r 29 * rcol r 21)⟩ : Deposit)))]
  · refine List.map_congr_left fun o _ => ?_
    simp only [Function.comp, Deposit.flip, microW_flip, Prod.fst_swap, Prod.snd_swap]
  · intro o _
    simp only [Function.comp, microW_flip, Prod.fst_swap, Prod.snd_swap]
    exact decide_eq_decide.2 (by tauto)

theorem stackOf_flip (n h w : ℕ) (ds : List Deposit) (f i j : ℕ) :
    stackOf n w h (ds.map Deposit.flip) f j i = stackOf n h w ds f i j := by
  unfold stackOf
  rw [List.filter_map, List.map_map]
  have : (fun d : Deposit => decide (d.flip.target n w h = some (f, j, i))) = fun d => decide (d.target n h w = some (f, i, j)) := by
    funext d; exact decide_eq_decide.2 (target_flip d n h w f i j)
  show (List.map _ (List.filter (fun d : Deposit => decide (d.flip.target n w h = some (f, j, i))) ds)).sum = _
  rw [this]
  rfl

/-! ### macro -/

/-- rows and columns of a box exchanged -/
def flipBox (b : ℤ × ℤ × ℤ × ℤ) : ℤ × ℤ × ℤ × ℤ := (b.2.2.1, b.2.2.2, b.1, b.2.1)

theorem finites_flip (D : Detector) (k : V3) (vs : List V3) :
    Detector.finites (vs.map fun v => (D.flip.intersect k v).1) = Detector.finites (vs.map fun v => (D.intersect k v).2.1) ∧
    Detector.finites (vs.map fun v => (D.flip.intersect k v).2.1) = Detector.finites (vs.map fun v => (D.intersect k v).1) := by
  induction vs with
  | nil => exact ⟨rfl, rfl⟩
  | cons v vs ih =>
    have skip : ∀ (x : Fl) (l : List Fl), ¬ IsFinite x → Detector.finites (x :: l) = Detector.finites l := by
      intro x l h; cases x <;> simp_all [Detector.finites, IsFinite]
    simp only [List.map_cons]
    rcases flip_intersect D k v with ⟨zd, yd, h1, h2, h3, h4⟩ | ⟨h1, h2, h3, h4⟩
    · rw [h1, h2, h3, h4]
      simp only [Detector.finites]
      exact ⟨by rw [ih.1], by rw [ih.2]⟩
    · rw [skip _ _ h1, skip _ _ h2, skip _ _ h3, skip _ _ h4]
      exact ih

theorem boundingBox_flip (D : Detector) (vs : List V3) (k : V3) : D.flip.boundingBox vs k = (D.boundingBox vs k).map flipBox := by
  unfold Detector.boundingBox
  dsimp only
  simp only [List.map_map, Function.comp_def]
  rw [(finites_flip D k vs).1, (finites_flip D k vs).2]
  cases h1 : Detector.finites (vs.map fun v => (D.intersect k v).1) with
  | nil => cases h2 : Detector.finites (vs.map fun v => (D.intersect k v).2.1) <;> rfl
  | cons z zs =>
    cases h2 : Detector.finites (vs.map fun v => (D.intersect k v).2.1) with
    | nil => rfl
    | cons y ys =>
      dsimp only
      have e1 : D.flip.zmax = D.ymax := rfl
      have e2 : D.flip.ymax = D.zmax := rfl
      rw [e1, e2]
      by_cases hc : max (Detector.minL z zs) 0 > min (Detector.maxL z zs) D.zmax ∨ max (Detector.minL y ys) 0 > min (Detector.maxL y ys) D.ymax
      · rw [if_pos hc, if_pos (Or.comm.mp hc)]; rfl
      · rw [if_neg hc, if_neg (fun h => hc (Or.comm.mp h))]; rfl

/-- the transposed frame -/
def flipFrame (t : Frame) : Frame := fun i j => t j i

theorem sampleEntry_flip (D : Detector) (hull : Hull) (u : V3) (r0 : ℤ) (nr : ℕ) (q0 : ℤ) (nq : ℕ) (p : V3) :
    (∃ a b c, D.sampleEntry hull u r0 nr q0 nq p = (a, b, c) ∧ D.flip.sampleEntry hull u q0 nq r0 nr p = (b, a, c)) := by
  unfold Detector.sampleEntry
  rcases flip_intersect D u p with ⟨zd, yd, h1, h2, h3, h4⟩ | ⟨h1, h2, h3, h4⟩
  · rw [h1, h2, h3, h4]
    exact ⟨_, _, _, rfl, rfl⟩
  · generalize (D.intersect u p).1 = a at *
    generalize (D.intersect u p).2.1 = b at *
    generalize (D.flip.intersect u p).1 = c at *
    generalize (D.flip.intersect u p).2.1 = e at *
    refine ⟨none, none, 0, ?_, ?_⟩
    · cases a <;> simp_all [IsFinite]
    · cases c <;> simp_all [IsFinite]

theorem projectHull_flip (D : Detector) (env : RenderEnv) (hull : Hull) (k : V3) (box : ℤ × ℤ × ℤ × ℤ) :
    D.flip.projectHull env hull k (flipBox box) = (D.projectHull env hull k box).map (Option.map flipFrame) := by
  unfold Detector.projectHull flipBox
  dsimp only
  set nr := (box.2.1 - box.1).toNat
  set nq := (box.2.2.2 - box.2.2.1).toNat
  set u := (1 / k.norm) • k
  rw [Nat.mul_comm nq nr]
  by_cases h1 : nr * nq = 1
  · rw [if_pos h1, if_pos h1]
    simp only [Except.map, Option.map]
    congr 2
    funext i j
    unfold flipFrame
    simp only [and_comm]
  · rw [if_neg h1, if_neg h1]
    by_cases h4 : nr * nq ≤ 4
    · rw [if_pos h4, if_pos h4]
      set pts := env.sample hull (7 * (nr * nq))
      have hswap : ∀ p, D.flip.sampleEntry hull u box.2.2.1 nq box.1 nr p =
          ((D.sampleEntry hull u box.1 nr box.2.2.1 nq p).2.1, (D.sampleEntry hull u box.1 nr box.2.2.1 nq p).1,
            (D.sampleEntry hull u box.1 nr box.2.2.1 nq p).2.2) := by
        intro p
        obtain ⟨a, b, c, e1, e2⟩ := sampleEntry_flip D hull u box.1 nr box.2.2.1 nq p
        rw [e2, e1]
      have hacc : ∀ i j, (((pts.map fun p => D.flip.sampleEntry hull u box.2.2.1 nq box.1 nr p).filter fun e => e.1 = some i ∧ e.2.1 = some j).map
            fun e => e.2.2).sum =
          (((pts.map fun p => D.sampleEntry hull u box.1 nr box.2.2.1 nq p).filter fun e => e.1 = some j ∧ e.2.1 = some i).map fun e => e.2.2).sum := by
        intro i j
        rw [List.filter_map, List.filter_map, List.map_map, List.map_map]
        rw [List.filter_congr (q := (fun e : Option ℕ × Option ℕ × ℝ => decide (e.1 = some j ∧ e.2.1 = some i)) ∘
          fun p => D.sampleEntry hull u box.1 nr box.2.2.1 nq p)]
        · refine congrArg List.sum (List.map_congr_left fun p _ => ?_)
          simp only [Function.comp, hswap]
        · intro p _
          simp only [Function.comp, hswap]
          exact decide_eq_decide.2 and_comm
      have hex : (∃ e ∈ pts.map fun p => D.flip.sampleEntry hull u box.2.2.1 nq box.1 nr p, e.1 = none ∨ e.2.1 = none) ↔
          (∃ e ∈ pts.map fun p => D.sampleEntry hull u box.1 nr box.2.2.1 nq p, e.1 = none ∨ e.2.1 = none) := by
        constructor
        · rintro ⟨e, he, hn⟩
          obtain ⟨p, hp, rfl⟩ := List.mem_map.mp he
          rw [hswap] at hn
          exact ⟨_, List.mem_map_of_mem hp, Or.comm.mp hn⟩
        · rintro ⟨e, he, hn⟩
          obtain ⟨p, hp, rfl⟩ := List.mem_map.mp he
          refine ⟨_, List.mem_map_of_mem hp, ?_⟩
          rw [hswap]
          exact Or.comm.mp hn
      by_cases hE : ∃ e ∈ pts.map fun p => D.sampleEntry hull u box.1 nr box.2.2.1 nq p, e.1 = none ∨ e.2.1 = none
      · rw [if_pos hE, if_pos (hex.mpr hE)]; rfl
      · rw [if_neg hE, if_neg (fun h => hE (hex.mp h))]
        simp only [hacc]
        rw [Finset.sum_comm]
        split_ifs with hz
        · rfl
        · rfl
    · rw [if_neg h4, if_neg h4]
      have hacc : ∀ i j, (if i < nq ∧ j < nr then Detector.clipLength hull.equations (D.flip.pixelCoordinate (box.2.2.1.toNat + i) (box.1.toNat + j)) u else 0) =
          (if j < nr ∧ i < nq then Detector.clipLength hull.equations (D.pixelCoordinate (box.1.toNat + j) (box.2.2.1.toNat + i)) u else 0) := by
        intro i j
        have e : D.flip.pixelCoordinate (box.2.2.1.toNat + i) (box.1.toNat + j) = D.pixelCoordinate (box.1.toNat + j) (box.2.2.1.toNat + i) := by
          unfold Detector.pixelCoordinate Detector.flip
          dsimp only
          rw [add_right_comm]
        rw [e]
        simp only [and_comm]
      simp only [hacc]
      rw [Finset.sum_comm]
      split_ifs with hz
      · rfl
      · rfl

theorem gaussKernel_flip (D : Detector) : D.flip.gaussKernel = D.gaussKernel := by
  have h : ∀ fuel r, D.flip.gaussRadiusLoop fuel r = D.gaussRadiusLoop fuel r := by
    intro fuel
    induction fuel with
    | zero => intro r; rfl
    | succ n ih =>
      intro r
      unfold Detector.gaussRadiusLoop
      rw [ih]
      rfl
  unfold Detector.gaussKernel Detector.gaussRadius
  rw [h]
  rfl

theorem gaussKernel_symm (D : Detector) (a b : ℕ) : D.gaussKernel.val a b = D.gaussKernel.val b a := by
  unfold Detector.gaussKernel Kernel.normalise
  dsimp only
  rw [add_comm (((a : ℝ) - _) ^ 2)]

theorem conv2d_flip (h w : ℕ) {k : Kernel} (hk : ∀ a b, k.val a b = k.val b a) (t : Frame) :
    conv2d w h k (flipFrame t) = flipFrame (conv2d h w k t) := by
  funext i j
  unfold conv2d flipFrame
  rw [Finset.sum_comm]
  beta_reduce
  by_cases hc : i < w ∧ j < h
  · rw [if_pos hc, if_pos hc.symm]
    refine Finset.sum_congr rfl fun a _ => Finset.sum_congr rfl fun b _ => ?_
    rw [hk b a]
    congr 1
    exact propext (by tauto)
  · rw [if_neg hc, if_neg (fun h0 => hc (And.symm h0))]

theorem macroPeak_flip (D : Detector) (env : RenderEnv) (b : Beam) (mesh : TetraMesh) (m : Motion) {r r' : List Fl} (h : FlipRow r r')
    (t : Option Frame) :
    D.flip.macroPeak env b mesh m r' (t.map flipFrame) = (D.macroPeak env b mesh m r t).map (Option.map flipFrame) := by
  have hr : ∀ j, j < 25 ∨ j = 29 → rcol r' j = rcol r j := fun j hj => h.rest j (by omega) (by omega) (by omega)
  unfold Detector.macroPeak
  have hv : Detector.movedVertices mesh m r' = Detector.movedVertices mesh m r := by
    unfold Detector.movedVertices; rw [hr 0 (by omega), hr 6 (by omega)]
  rw [hv]
  cases env.hull b (Detector.movedVertices mesh m r) with
  | none => rfl
  | some hull =>
    dsimp only
    rw [hr 13 (by omega), hr 14 (by omega), hr 15 (by omega), hr 29 (by omega), boundingBox_flip]
    cases D.boundingBox hull.points ⟨rcol r 13, rcol r 14, rcol r 15⟩ with
    | none => rfl
    | some box =>
      simp only [Option.map]
      rw [projectHull_flip]
      cases D.projectHull env hull ⟨rcol r 13, rcol r 14, rcol r 15⟩ box with
      | error e => rfl
      | ok pr =>
        cases pr with
        | none => rfl
        | some pr =>
          cases t with
          | none => rfl
          | some t =>
            simp only [Except.map, Option.map]
            congr 2
            funext i j
            unfold flipFrame flipBox
            dsimp only
            have e1 : D.flip.pz = D.py := rfl
            have e2 : D.flip.py = D.pz := rfl
            rw [e1, e2]
            by_cases hc : box.1 ≤ j ∧ (j : ℤ) < box.2.1 ∧ box.2.2.1 ≤ i ∧ (i : ℤ) < box.2.2.2
            · rw [if_pos hc, if_pos (by tauto)]; ring
            · rw [if_neg hc, if_neg (by tauto)]

theorem macroPeaks_flip (D : Detector) (env : RenderEnv) (b : Beam) (mesh : TetraMesh) (m : Motion) {rs rs' : List (List Fl)}
    (h : List.Forall₂ FlipRow rs rs') (t : Option Frame) :
    D.flip.macroPeaks env b mesh m (t.map flipFrame) rs' = (D.macroPeaks env b mesh m t rs).map (Option.map flipFrame) := by
  induction h generalizing t with
  | nil => rfl
  | cons h1 _ ih =>
    rename_i r r' rs rs' _
    unfold Detector.macroPeaks
    rw [macroPeak_flip D env b mesh m h1]
    cases D.macroPeak env b mesh m r t with
    | error e => rfl
    | ok t' => exact ih t'

theorem forall2_filter_col {rs rs' : List (List Fl)} (h : List.Forall₂ FlipRow rs rs') (j : ℕ) (h1 : j ≠ 25) (h2 : j ≠ 26) (h3 : j ≠ 27)
    (p : ℝ → Prop) : List.Forall₂ FlipRow (rs.filter fun r => p (rcol r j)) (rs'.filter fun r => p (rcol r j)) := by
  induction h with
  | nil => exact .nil
  | cons ha _ ih =>
    rename_i r r' rs rs' _
    rw [List.filter_cons, List.filter_cons, ha.rest j h1 h2 h3]
    by_cases hp : p (rcol r j)
    · rw [if_pos (by simpa using hp), if_pos (by simpa using hp)]; exact .cons ha ih
    · rw [if_neg (by simpa using hp), if_neg (by simpa using hp)]; exact ih

theorem macroFrames_flip (D : Detector) (env : RenderEnv) (b : Beam) (mesh : TetraMesh) (m : Motion) {rs rs' : List (List Fl)}
    (h : List.Forall₂ FlipRow rs rs') (fs : List ℕ) :
    D.flip.macroFrames env b mesh m rs' fs = (D.macroFrames env b mesh m rs fs).map (List.map (Option.map flipFrame)) := by
  induction fs with
  | nil => rfl
  | cons f fs ih =>
    unfold Detector.macroFrames
    have h0 := macroPeaks_flip D env b mesh m (forall2_filter_col h 28 (by omega) (by omega) (by omega) (fun x => x = (f : ℝ))) (some fun _ _ => 0)
    have e0 : (some fun _ _ => 0 : Option Frame).map flipFrame = some fun _ _ => 0 := rfl
    rw [e0] at h0
    rw [h0]
    cases D.macroPeaks env b mesh m (some fun _ _ => 0) (rs.filter fun r => rcol r 28 = (f : ℝ)) with
    | error e => rfl
    | ok t =>
      simp only [Except.map]
      rw [ih]
      cases D.macroFrames env b mesh m rs fs with
      | error e => rfl
      | ok ts =>
        simp only [Except.map, List.map_cons]
        congr 2
        cases t with
        | none => rfl
        | some t =>
          simp only [Option.map]
          rw [gaussKernel_flip]
          congr 1
          exact conv2d_flip D.nz D.ny (gaussKernel_symm D) t

/-- the transposed stack -/
def flipStack (t : Stack) : Stack := fun f i j => t f j i

theorem renderMacro_flip (D : Detector) (env : RenderEnv) (b : Beam) (mesh : TetraMesh) (m : Motion) {rs rs' : List (List Fl)}
    (h : List.Forall₂ FlipRow rs rs') (n : ℕ) :
    D.flip.renderMacro env b mesh m rs' n = (D.renderMacro env b mesh m rs n).map (Option.map flipStack) := by
  unfold Detector.renderMacro
  rw [macroFrames_flip D env b mesh m h]
  cases D.macroFrames env b mesh m rs (List.range n) with
  | error e => rfl
  | ok ts =>
    simp only [Except.map]
    have hn : none ∈ ts.map (Option.map flipFrame) ↔ none ∈ ts := by
      rw [List.mem_map]
      constructor
      · rintro ⟨a, ha, h0⟩; cases a with
        | none => exact ha
        | some a => cases h0
      · intro h0; exact ⟨none, h0, rfl⟩
    by_cases hN : none ∈ ts
    · rw [if_pos hN, if_pos (hn.mpr hN)]; rfl
    · rw [if_neg hN, if_neg (fun h => hN (hn.mp h))]
      simp only [Option.map]
      congr 2
      funext f i j
      unfold flipStack
      rw [List.getElem?_map]
      beta_reduce
      cases ts[f]? with
      | none => rfl
      | some t => cases t <;> rfl

theorem renderMicro_flip (D : Detector) (g g' : ℝ) {rs rs' : List (List Fl)} (h : List.Forall₂ FlipRow rs rs') (n : ℕ) :
    D.flip.renderMicro g' rs' n = (D.renderMicro g rs n).map flipStack := by
  have hp : (rs'.flatMap D.flip.microDeposits).Perm ((rs.flatMap D.microDeposits).map Deposit.flip) := by
    induction h with
    | nil => exact .refl _
    | cons ha _ ih =>
      simp only [List.flatMap_cons, List.map_append]
      exact (microDeposits_flip ha).append ih
  rw [renderMicro_eq, renderMicro_eq]
  have hE : (∃ d ∈ rs'.flatMap D.flip.microDeposits, d.target n D.flip.nz D.flip.ny = none) ↔
      (∃ d ∈ rs.flatMap D.microDeposits, d.target n D.nz D.ny = none) := by
    have key : ∀ d : Deposit, d.flip.target n D.flip.nz D.flip.ny = none ↔ d.target n D.nz D.ny = none := by
      intro d
      show d.flip.target n D.ny D.nz = none ↔ _
      rw [Option.eq_none_iff_forall_ne_some, Option.eq_none_iff_forall_ne_some]
      constructor
      · rintro h ⟨f, i, j⟩ e; exact h (f, j, i) ((target_flip d n D.nz D.ny f i j).mpr e)
      · rintro h ⟨f, j, i⟩ e; exact h (f, i, j) ((target_flip d n D.nz D.ny f i j).mp e)
    constructor
    · rintro ⟨d, hd, hn⟩
      obtain ⟨d0, hd0, rfl⟩ := List.mem_map.mp (hp.mem_iff.mp hd)
      exact ⟨d0, hd0, (key d0).mp hn⟩
    · rintro ⟨d, hd, hn⟩
      exact ⟨d.flip, hp.mem_iff.mpr (List.mem_map_of_mem hd), (key d).mpr hn⟩
  by_cases hc : ∃ d ∈ rs.flatMap D.microDeposits, d.target n D.nz D.ny = none
  · rw [if_pos hc, if_pos (hE.mpr hc)]; rfl
  · rw [if_neg hc, if_neg (fun h => hc (hE.mp h))]
    simp only [Except.map]
    congr 1
    funext f i j
    rw [stackOf_perm hp]
    exact stackOf_flip n D.nz D.ny _ f j i

theorem flip_forall2 (D : Detector) (d : PeaksDict) (n : ℤ) (hlen : ∀ r ∈ d.peaks, r.length = 25) :
    List.Forall₂ FlipRow (D.peaksIntersection d n).peaks (D.flip.peaksIntersection d n).peaks := by
  rw [(flip_hits D d n hlen).1, (flip_hits D d n hlen).2, List.forall₂_map_left_iff, List.forall₂_map_right_iff, List.forall₂_same]
  intro q hq
  obtain ⟨hq, hk⟩ := List.mem_filter.mp hq
  exact flipRow_of_kept (hlen q hq) (by simpa using hk)

end XRD
