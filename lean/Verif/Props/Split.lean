import Verif.Lemmas.Split

/-! Property C73: a scan taken in two parts. -/

namespace XRD.Spec
open XRD V3

/-- the time column of a row holds a time up to `l` -/
def Upto (cols : List String) (l : ℝ) (row : List Fl) : Prop := ∃ t, Has cols row "diffraction_times" (.fin t) ∧ t ≤ l

/-- `row2` describes the event of `row` as the second part of a scan, begun at time `l` with the crystal turned by `turn`, sees it:
time `t = l + (1 - l)·s`, undeformed-frame vector `G0` turned with the crystal, every other column except the running number
identical. -/
def SameEventSecond (cols : List String) (l : ℝ) (turn : V3 → V3) (row row2 : List Fl) : Prop :=
  (∃ t s, Has cols row "diffraction_times" (.fin t) ∧ Has cols row2 "diffraction_times" (.fin s) ∧ t = l + (1 - l) * s) ∧
  (∃ g, HasV cols row "G0_x" "G0_y" "G0_z" g ∧ HasV cols row2 "G0_x" "G0_y" "G0_z" (turn g)) ∧
  ∀ name, name ∉ ["diffraction_times", "G0_x", "G0_y", "G0_z", "peak_index"] → ∀ v, Has cols row2 name v ↔ Has cols row name v

/-- `row1` describes the event of `row` on the clock of the first part of a scan that ends at time `l`: the time is divided by `l`,
every other column except the running number is identical. -/
def SameEventFirst (cols : List String) (l : ℝ) (row row1 : List Fl) : Prop :=
  (∃ t, Has cols row "diffraction_times" (.fin t) ∧ Has cols row1 "diffraction_times" (.fin (t / l))) ∧
  ∀ name, name ≠ "diffraction_times" → name ≠ "peak_index" → ∀ v, Has cols row1 name v ↔ Has cols row name v
end XRD.Spec

namespace XRD
open V3 M3 Fl Spec
open scoped Classical

section
variable {c : Crystal} {b : Beam} {m m1 : Motion} {l : ℝ}

theorem illuminated_set6 (b : Beam) (row : List Fl) (v : Fl) : illuminated b (row.set 6 v) = illuminated b row := by
  unfold illuminated sourceOf
  simp [List.getElem?_set]

/-- a row of 24 columns with its time -/
def TimedRow (row : List Fl) : Prop := row.length = 24 ∧ ∃ t, row[6]? = some (fin t)

/-- `Upto` for a row of 24 columns -/
def upto24 (l : ℝ) (row : List Fl) : Prop := ∃ t, row[6]? = some (fin t) ∧ t ≤ l

/-- the row on the clock of the first part -/
noncomputable def clock24 (l : ℝ) (row : List Fl) : List Fl :=
  match row[6]? with
  | some (fin t) => row.set 6 (fin (t / l))
  | _ => row

theorem extendRow_timed (c : Crystal) (b : Beam) (m : Motion) {r : List ℝ} (hr : r.length = 10) :
    (extendRow c b m r).length = 24 ∧ (extendRow c b m r)[6]? = some (fin (colD r 6)) := by
  match r, hr with
  | [a0, a1, a2, a3, a4, a5, a6, a7, a8, a9], _ => exact ⟨rfl, rfl⟩

theorem split_kept (hl0 : 0 < l) (ha : m1.axis = m.axis) (hang : m1.angle = l * m.angle) (hT : m1.translation = l • m.translation)
    (ho : m1.origin = m.origin) : ∀ rows : List (List ℝ), (∀ r ∈ rows, r.length = 10) →
    ((rows.filterMap (rowClock l)).map (extendRow c b m1)).filter (illuminated b) =
      ((((rows.map (extendRow c b m)).filter (illuminated b)).filter fun r => decide (upto24 l r))).map (clock24 l) := by
  intro rows
  induction rows with
  | nil => intro _; rfl
  | cons r rest ih =>
    intro h
    have ih := ih fun r' hr' => h r' (List.mem_cons_of_mem _ hr')
    have hr := h r List.mem_cons_self
    obtain ⟨-, h6⟩ := extendRow_timed c b m hr
    have hu : upto24 l (extendRow c b m r) ↔ colD r 6 ≤ l := by
      unfold upto24; rw [h6]; simp
    by_cases ht : colD r 6 ≤ l
    · have e1 : rowClock l r = some (r.set 6 (colD r 6 / l)) := by simp [rowClock, reclock, ht]
      have e2 := split_extendRow c b (m := m) (m1 := m1) hl0 ha hang hT ho hr
      rw [List.filterMap_cons, e1, List.map_cons, List.map_cons, e2]
      rw [List.filter_cons, List.filter_cons, illuminated_set6]
      by_cases hi : illuminated b (extendRow c b m r) = true
      · rw [if_pos hi, if_pos hi, List.filter_cons, if_pos (by simpa using hu.mpr ht), List.map_cons, ih]
        congr 1
        unfold clock24
        rw [h6]
      · rw [if_neg hi, if_neg hi, ih]
    · have e1 : rowClock l r = none := by simp [rowClock, reclock, ht]
      rw [List.filterMap_cons, e1, List.map_cons, List.filter_cons]
      dsimp only
      by_cases hi : illuminated b (extendRow c b m r) = true
      · rw [if_pos hi, List.filter_cons, if_neg (by simpa using fun h => ht (hu.mp h)), ih]
      · rw [if_neg hi, ih]

theorem has_peakColumns {name : String} {i : ℕ} (h : peakColumns[i]? = some name) :
    (name = "diffraction_times" ↔ i = 6) ∧ (name = "peak_index" ↔ i = 24) := by
  have hi : i < 25 := by
    by_contra hc
    rw [List.getElem?_eq_none (by show 25 ≤ i; omega)] at h
    cases h
  interval_cases i <;> (obtain rfl := Option.some.inj h; decide)

theorem upto_append {l : ℝ} {row : List Fl} (h : TimedRow row) (v : Fl) : Upto peakColumns l (row ++ [v]) ↔ upto24 l row := by
  obtain ⟨hl, -⟩ := h
  constructor
  · rintro ⟨t, ⟨i, h1, h2⟩, h3⟩
    obtain rfl := (has_peakColumns h1).1.mp rfl
    rw [List.getElem?_append_left (by omega)] at h2
    exact ⟨t, h2, h3⟩
  · rintro ⟨t, h1, h2⟩
    exact ⟨t, ⟨6, rfl, by rw [List.getElem?_append_left (by omega)]; exact h1⟩, h2⟩

theorem sameEventFirst {l : ℝ} {row : List Fl} (h : TimedRow row) (v v1 : Fl) :
    SameEventFirst peakColumns l (row ++ [v]) (clock24 l row ++ [v1]) := by
  obtain ⟨hl, t, ht⟩ := h
  have e : clock24 l row = row.set 6 (fin (t / l)) := by unfold clock24; rw [ht]
  rw [e]
  refine ⟨⟨t, ⟨6, rfl, ?_⟩, ⟨6, rfl, ?_⟩⟩, ?_⟩
  · rw [List.getElem?_append_left (by omega)]; exact ht
  · rw [List.getElem?_append_left (by rw [List.length_set]; omega), List.getElem?_set]; simp; omega
  · intro name h6 h24 w
    have key : ∀ i : ℕ, peakColumns[i]? = some name → (row.set 6 (fin (t / l)) ++ [v1])[i]? = (row ++ [v])[i]? := by
      intro i hi
      have n6 : i ≠ 6 := fun e => h6 ((has_peakColumns hi).1.mpr e)
      have n24 : i ≠ 24 := fun e => h24 ((has_peakColumns hi).2.mpr e)
      have hi' : i < 25 := by
        by_contra hc
        rw [List.getElem?_eq_none (by show 25 ≤ i; omega)] at hi
        cases hi
      rw [List.getElem?_append_left (by rw [List.length_set]; omega), List.getElem?_append_left (by omega), List.getElem?_set,
        if_neg (fun e => n6 e.symm)]
    constructor
    · rintro ⟨i, h1, h2⟩; exact ⟨i, h1, by rw [← key i h1]; exact h2⟩
    · rintro ⟨i, h1, h2⟩; exact ⟨i, h1, by rw [key i h1]; exact h2⟩

theorem split_numbered (l : ℝ) : ∀ (rows : List (List Fl)) (f g : ℕ → Fl), (∀ r ∈ rows, TimedRow r) →
    List.Forall₂ (SameEventFirst peakColumns l)
      ((rows.mapIdx fun i row => row ++ [f i]).filter fun r => decide (Upto peakColumns l r))
      (((rows.filter fun r => decide (upto24 l r)).map (clock24 l)).mapIdx fun i row => row ++ [g i]) := by
  intro rows
  induction rows with
  | nil => intro f g _; exact List.Forall₂.nil
  | cons r rest ih =>
    intro f g h
    have hr := h r List.mem_cons_self
    have ih' := fun f g => ih f g fun r' hr' => h r' (List.mem_cons_of_mem _ hr')
    rw [List.mapIdx_cons, List.filter_cons, List.filter_cons]
    by_cases hu : upto24 l r
    · rw [if_pos (by simpa using (upto_append hr _).mpr hu), if_pos (by simpa using hu), List.map_cons, List.mapIdx_cons]
      exact List.Forall₂.cons (sameEventFirst hr _ _) (ih' (fun i => f (i + 1)) fun i => g (i + 1))
    · rw [if_neg (by simpa using fun h => hu ((upto_append hr _).mp h)), if_neg (by simpa using hu)]
      exact ih' (fun i => f (i + 1)) g

end

/-- C73: the first part of a scan.  The crystal is scanned with a motion of angle `w` and translation `T`, and (the same crystal,
in the same position) with the first part `l·w`, `l·T` of that motion.  The second table holds exactly the peaks of the first table
with times up to `l`, in the same order, with times divided by `l` and every other column identical. -/
theorem C73_first_part (x : Xfab) (p : Polycrystal) (b : Beam) (a T o : V3) (w l : ℝ) (hl0 : 0 < l) (hl1 : l ≤ 1) (m m1 : Motion)
    (hm : Motion.new a w T o = .ok m) (hm1 : Motion.new a (l * w) (l • T) o = .ok m1) (lo hi : ℝ) (det : Option Detector)
    (d d1 : PeaksDict) (p' p1' : Polycrystal) (hd : p.diffract x b m lo hi det = .ok (d, p'))
    (hd1 : p.diffract x b m1 lo hi det = .ok (d1, p1')) :
    p1' = p' ∧ d1.columns = d.columns ∧
    List.Forall₂ (SameEventFirst d.columns l) (d.peaks.filter fun row => decide (Upto d.columns l row)) d1.peaks := by
  obtain ⟨rfl, hw, -, -⟩ := Motion.new_ok hm
  obtain ⟨rfl, -, -, -⟩ := Motion.new_ok hm1
  obtain ⟨lo1, hi1, hb1, rfl, hc1⟩ := Polycrystal.diffract_ok hd1
  obtain ⟨lo', hi', hb, rfl, hc⟩ := Polycrystal.diffract_ok hd
  rw [hb] at hb1
  have hb1 := Except.ok.inj hb1
  simp only [Prod.mk.injEq] at hb1
  obtain ⟨rfl, rfl⟩ := hb1
  refine ⟨rfl, by rw [diffract_columns hc, diffract_columns hc1], ?_⟩
  rw [diffract_columns hc]
  set cr := (p.setupPhases x b.wavelength lo' hi').crystal
  unfold diffractCore at hc hc1
  split at hc
  · cases hc
  rename_i rows hrows
  split at hc1
  · cases hc1
  rename_i rows1 hrows1
  obtain rfl := Except.ok.inj hc
  obtain rfl := Except.ok.inj hc1
  obtain rfl := computePeaks_ok hrows
  obtain rfl := computePeaks_ok hrows1
  set m : Motion := ⟨a, w, T, o⟩ with hmd
  set m1 : Motion := ⟨a, l * w, l • T, o⟩ with hm1d
  dsimp only
  rw [split_allPhaseRows cr b (m := m) (m1 := m1) hw hl0 hl1 rfl rfl,
    split_kept (m := m) (m1 := m1) hl0 rfl rfl rfl rfl _ fun r hr => allPhaseRows_length10 cr b (m := m) (m1 := m1) hw hl0 hl1 rfl rfl hr]
  apply split_numbered
  intro r hr
  obtain ⟨q, hq, rfl⟩ := List.mem_map.mp (List.mem_filter.mp hr).1
  obtain ⟨h1, h2⟩ := extendRow_timed cr b m (allPhaseRows_length10 cr b (m := m) (m1 := m1) hw hl0 hl1 rfl rfl hq)
  exact ⟨h1, _, h2⟩

/-! ### the second part -/

section
variable {a T o : V3} {w l : ℝ}

theorem split_rotate1 (ha : nsq a = 1) (v : V3) (s : ℝ) :
    (⟨a, (1 - l) * w, (1 - l) • T, o + l • T⟩ : Motion).rotate1 ((⟨a, l * w, l • T, o⟩ : Motion).rotate1 v 1) s =
      (⟨a, w, T, o⟩ : Motion).rotate1 v (l + (1 - l) * s) := by
  unfold Motion.rotate1
  dsimp only
  rw [← mulVec_mul, rotMat_mul ha]
  congr 2
  ring

theorem split_call1 (ha : nsq a = 1) (v : V3) (s : ℝ) :
    (⟨a, (1 - l) * w, (1 - l) • T, o + l • T⟩ : Motion).call1 ((⟨a, l * w, l • T, o⟩ : Motion).call1 v 1) s =
      (⟨a, w, T, o⟩ : Motion).call1 v (l + (1 - l) * s) := by
  unfold Motion.call1
  dsimp only
  have e : (rotMat a (l * w * 1)).mulVec (v - o) + o + (1 : ℝ) • l • T - (o + l • T) = (rotMat a (l * w * 1)).mulVec (v - o) := by
    ext <;> simp
  rw [e, ← mulVec_mul, rotMat_mul ha]
  have e2 : (1 - l) * w * s + l * w * 1 = w * (l + (1 - l) * s) := by ring
  rw [e2]
  ext <;> simp <;> ring

theorem degenerate_iff (ha : nsq a = 1) (k G : V3) :
    (rho2Factor k a).dot G + nsq G / 2 - (rho0Factor k a).dot G = 0 ↔ Elastic k (rotate a Real.pi G) := by
  rw [← laue_iff_elastic ha]
  rw [Real.cos_pi, Real.sin_pi]
  constructor <;> intro h <;> linarith

theorem found_of_elastic (ha : nsq a = 1) {b : Beam} (hw0 : 0 < w) (hw1 : w < Real.pi) {G : V3} {t : ℝ} (h0 : 0 ≤ t) (h1 : t ≤ 1)
    (hne : ¬ Elastic b.waveVector (rotate a Real.pi G)) (h : Elastic b.waveVector ((⟨a, w, T, o⟩ : Motion).rotate1 G t)) :
    Found b ⟨a, w, T, o⟩ G t := by
  unfold Found
  refine branch_complete hw0 hw1 (fun e => hne ((degenerate_iff ha _ _).mp e)) h0 h1 ?_
  rw [laue_iff_elastic ha, ← rotMat_eq_spec ha, mul_comm t w]
  exact h

theorem elastic_of_found (ha : nsq a = 1) {b : Beam} (hw0 : 0 < w) {G : V3} {t : ℝ} (h : Found b ⟨a, w, T, o⟩ G t) :
    Elastic b.waveVector ((⟨a, w, T, o⟩ : Motion).rotate1 G t) ∧ 0 ≤ t ∧ t ≤ 1 := by
  obtain ⟨h1, h2⟩ := found_sound (m := ⟨a, w, T, o⟩) hw0 h
  refine ⟨?_, h2⟩
  rw [elastic_iff]
  unfold Motion.rotate1 at h1 ⊢
  rw [IsRot.nsq_mulVec (rotMat_isRot ha _).1]
  exact h1

theorem rotate_rotate (ha : nsq a = 1) (α β : ℝ) (v : V3) : rotate a α (rotate a β v) = rotate a (α + β) v := by
  rw [← rotMat_eq_spec ha, ← rotMat_eq_spec ha, ← rotMat_eq_spec ha, ← mulVec_mul, rotMat_mul ha]

theorem sameEventSecond {c c' : Crystal} {b : Beam} (ha : nsq a = 1) {e i : ℕ} {hkl : HKL} {wt s : ℝ}
    (hG : c'.G0 e hkl = (⟨a, l * w, l • T, o⟩ : Motion).rotate1 (c.G0 e hkl) 1)
    (hS : c'.sphereCentroids.getD e 0 = (⟨a, l * w, l • T, o⟩ : Motion).call1 (c.sphereCentroids.getD e 0) 1)
    (hV : c'.volumes = c.volumes) (n n2 : Fl) :
    SameEventSecond peakColumns l (rotate a (l * w))
      (row24 c b ⟨a, w, T, o⟩ e i hkl wt (l + (1 - l) * s) ++ [n])
      (row24 c' b ⟨a, (1 - l) * w, (1 - l) • T, o + l • T⟩ e i hkl wt s ++ [n2]) := by
  refine ⟨⟨_, s, ⟨6, rfl, rfl⟩, ⟨6, rfl, rfl⟩, rfl⟩, ⟨c.G0 e hkl, ⟨⟨7, rfl, rfl⟩, ⟨8, rfl, rfl⟩, ⟨9, rfl, rfl⟩⟩, ?_⟩, ?_⟩
  · have : rotate a (l * w) (c.G0 e hkl) = c'.G0 e hkl := by
      rw [hG, ← rotMat_eq_spec ha]; unfold Motion.rotate1; dsimp only; rw [_root_.mul_one]
    rw [this]
    exact ⟨⟨7, rfl, rfl⟩, ⟨8, rfl, rfl⟩, ⟨9, rfl, rfl⟩⟩
  · intro name hn v
    have e1 := split_rotate1 (T := T) (o := o) (w := w) (l := l) ha (c.G0 e hkl) s
    have e2 := split_call1 (T := T) (o := o) (w := w) (l := l) ha (c.sphereCentroids.getD e 0) s
    rw [← hG] at e1
    rw [← hS] at e2
    have key : ∀ j : ℕ, peakColumns[j]? = some name →
        (row24 c' b ⟨a, (1 - l) * w, (1 - l) • T, o + l • T⟩ e i hkl wt s ++ [n2])[j]? =
        (row24 c b ⟨a, w, T, o⟩ e i hkl wt (l + (1 - l) * s) ++ [n])[j]? := by
      intro j hj
      have hi' : j < 25 := by
        by_contra hc
        rw [List.getElem?_eq_none (by show 25 ≤ j; omega)] at hj
        cases hj
      unfold row24
      dsimp only
      rw [e1, e2, hV]
      interval_cases j <;> first
        | rfl
        | (exfalso; apply hn; obtain rfl := Option.some.inj hj; decide)
    constructor
    · rintro ⟨i, h1, h2⟩; exact ⟨i, h1, by rw [← key i h1]; exact h2⟩
    · rintro ⟨i, h1, h2⟩; exact ⟨i, h1, by rw [key i h1]; exact h2⟩

end

theorem hasV_row24 {c : Crystal} {b : Beam} {m : Motion} {e i : ℕ} {hkl : HKL} {wt t : ℝ} {n : Fl} {g : V3}
    (h : HasV peakColumns (row24 c b m e i hkl wt t ++ [n]) "G0_x" "G0_y" "G0_z" g) : g = c.G0 e hkl := by
  obtain ⟨h1, h2, h3⟩ := h
  have h1 := (has_iff 7 rfl).mp h1
  have h2 := (has_iff 8 rfl).mp h2
  have h3 := (has_iff 9 rfl).mp h3
  have k1 := Fl.fin.inj (Option.some.inj h1)
  have k2 := Fl.fin.inj (Option.some.inj h2)
  have k3 := Fl.fin.inj (Option.some.inj h3)
  ext
  · exact k1.symm
  · exact k2.symm
  · exact k3.symm

/-- C73, proved part: the second part of a scan.  The crystal is scanned with the motion `m` of angle `w` and translation `T`; and,
after being moved by the first part (angle `l·w`, translation `l·T`), with the second part of it (angle `(1-l)·w`, translation
`(1-l)·T`, rotation centre moved along).  Each peak of the whole scan later than `l` is a peak of the second part and each peak of the
second part is a peak of the whole scan, with the same values in all columns but time, `G0` and running number; provided the
reflection is not one that would satisfy the Laue condition half a turn after the start of the other scan.  Missing: those
reflections, for which the claim is false (`C73_second_part_fails`). -/
theorem C73_second_part_partial (x : Xfab) (hx : ∀ h cell sg cif, (x.sfBatch h cell sg cif).length = h.length) (p : Polycrystal)
    (hp : Built p) (hph : ∀ ph ∈ p.phases, ph.Fresh) (b : Beam) (a T o : V3) (ha : norm a = 1) (w l : ℝ) (hl0 : 0 < l) (hl1 : l < 1)
    (m m1 m2 : Motion) (hm : Motion.new a w T o = .ok m) (hm1 : Motion.new a (l * w) (l • T) o = .ok m1)
    (hm2 : Motion.new a ((1 - l) * w) ((1 - l) • T) (o + l • T) = .ok m2) (lo hi : ℝ)
    (d d2 : PeaksDict) (p' p2' : Polycrystal) (hd : p.diffract x b m lo hi none = .ok (d, p'))
    (hd2 : (p.transform m1 1).diffract x b m2 lo hi none = .ok (d2, p2')) :
    p2' = p'.transform m1 1 ∧ d2.columns = d.columns ∧
    (∀ row ∈ d.peaks, ∀ t, Has d.columns row "diffraction_times" (fin t) → l ≤ t →
      ∀ g, HasV d.columns row "G0_x" "G0_y" "G0_z" g → ¬ Elastic b.waveVector (rotate a (Real.pi + l * w) g) →
      ∃ row2 ∈ d2.peaks, SameEventSecond d.columns l (rotate a (l * w)) row row2) ∧
    (∀ row2 ∈ d2.peaks, ∀ g, HasV d.columns row2 "G0_x" "G0_y" "G0_z" g → ¬ Elastic b.waveVector (rotate a (Real.pi - l * w) g) →
      ∃ row ∈ d.peaks, SameEventSecond d.columns l (rotate a (l * w)) row row2) := by
  obtain ⟨rfl, hw0, hw1, -⟩ := Motion.new_ok hm
  obtain ⟨rfl, -, -, -⟩ := Motion.new_ok hm1
  obtain ⟨rfl, hv0, hv1, -⟩ := Motion.new_ok hm2
  have hn : nsq a = 1 := by rw [← V3.norm_sq, ha]; norm_num
  obtain ⟨f1, f2, -⟩ := built_facts hp
  obtain ⟨lo', hi', hb, rfl, hc⟩ := Polycrystal.diffract_ok hd
  obtain ⟨lo2, hi2, hb2, rfl, hc2⟩ := Polycrystal.diffract_ok hd2
  have hb := Except.ok.inj hb
  have hb2 := Except.ok.inj hb2
  simp only [Prod.mk.injEq] at hb hb2
  obtain ⟨rfl, rfl⟩ := hb
  obtain ⟨rfl, rfl⟩ := hb2
  rw [diffract_columns hc, diffract_columns hc2]
  refine ⟨rfl, rfl, ?_⟩
  have hcons : ∀ ph ∈ (p.setupPhases x b.wavelength lo hi).crystal.phases, ph.Consistent := by
    intro ph h
    obtain ⟨ph0, h0, rfl⟩ := List.mem_map.mp h
    exact Phase.setup_consistent hx (hph _ h0) _ _ _
  set m1 : Motion := ⟨a, l * w, l • T, o⟩ with hm1d
  set c := (p.setupPhases x b.wavelength lo hi).crystal with hcd
  set c' := ((p.transform m1 1).setupPhases x b.wavelength lo hi).crystal with hcd'
  have hcons' : ∀ ph ∈ c'.phases, ph.Consistent := hcons
  have hG : ∀ e hkl, c'.G0 e hkl = m1.rotate1 (c.G0 e hkl) 1 := by
    intro e hkl
    have e1 : c'.orientation = c.orientation.map (rotMat m1.axis (m1.angle * 1) * ·) := rfl
    have e2 : c'.eB = c.eB := rfl
    unfold Crystal.G0 Motion.rotate1
    rw [e2, ← turn_getG]
    congr 1
    rw [e1, List.getD_eq_getElem?_getD, List.getD_eq_getElem?_getD, List.getElem?_map]
    cases c.orientation[e]? with
    | none => simp only [Option.map_none, Option.getD_none]; ext <;> simp [vecMul]
    | some U => rfl
  have hS : ∀ e i : ℕ, c.phaseMap[e]? = some (i : ℝ) → i < c.phases.length → c'.sphereCentroids.getD e 0 = m1.call1 (c.sphereCentroids.getD e 0) 1 := by
    intro e i he hi
    have e1 : c'.sphereCentroids = c.sphereCentroids.map (fun q => m1.call1 q 1) := rfl
    have hlt : e < c.sphereCentroids.length := by
      show e < p.meshLab.espherecentroids.length
      rw [f2]
      refine f1 i ?_ e (mem_grainIndices.mpr he)
      simpa [hcd, Polycrystal.setupPhases, Polycrystal.crystal] using hi
    rw [e1, List.getD_eq_getElem?_getD, List.getD_eq_getElem?_getD, List.getElem?_map, List.getElem?_eq_getElem hlt]
    rfl
  have hrefl : ∀ {e i ph n hkl wt}, Reflection c e i ph n hkl wt ↔ Reflection c' e i ph n hkl wt := by
    intro e i ph n hkl wt
    exact ⟨fun h => ⟨h.1, h.2, h.3⟩, fun h => ⟨h.1, h.2, h.3⟩⟩
  have hVol : c'.volumes = c.volumes := rfl
  have hm1r : ∀ v, m1.rotate1 v 1 = rotate a (l * w) v := by
    intro v
    rw [← rotMat_eq_spec hn]; unfold Motion.rotate1; dsimp only [m1]; rw [_root_.mul_one]
  constructor
  · intro row hrow t ht hlt g hg hne
    obtain ⟨e, i, ph, n, hkl, wt, t', idx, hr, hf, hcon, rfl⟩ := mem_diffract hcons hc hrow
    have htt : t = t' := by
      have := (has_iff 6 rfl).mp ht
      exact (Fl.fin.inj (Option.some.inj this)).symm
    subst htt
    obtain rfl := hasV_row24 hg
    obtain ⟨hel, h0, h1⟩ := elastic_of_found hn hw0 hf
    set s := (t - l) / (1 - l) with hs
    have hts : t = l + (1 - l) * s := by
      rw [hs]; field_simp [(sub_pos.mpr hl1).ne']; ring
    have hs0 : 0 ≤ s := div_nonneg (by linarith) (by linarith)
    have hs1 : s ≤ 1 := by rw [hs, div_le_one (by linarith)]; linarith
    clear_value s
    subst hts
    rw [← split_rotate1 hn, ← hm1d, ← hG] at hel
    have hne' : ¬ Elastic b.waveVector (rotate a Real.pi (c'.G0 e hkl)) := by
      rw [hG, hm1r, rotate_rotate hn]; exact hne
    have hf2 := found_of_elastic hn (T := (1 - l) • T) (o := o + l • T) hv0 hv1 hs0 hs1 hne' hel
    have hi := (List.getElem?_eq_some_iff.mp hr.phase).1
    have hS' := hS e i hr.inPhase hi
    rw [← split_call1 hn, ← hm1d, ← hS'] at hcon
    obtain ⟨idx2, hrow2⟩ := mem_diffract_of hcons' hc2 (hrefl.mp hr) hf2 hcon
    exact ⟨_, hrow2, sameEventSecond hn (hG e hkl) hS' hVol _ _⟩
  · intro row hrow g hg hne
    obtain ⟨e, i, ph, n, hkl, wt, s, idx, hr, hf, hcon, rfl⟩ := mem_diffract hcons' hc2 hrow
    obtain rfl := hasV_row24 hg
    obtain ⟨hel, h0, h1⟩ := elastic_of_found hn hv0 hf
    rw [hG, hm1d, split_rotate1 hn] at hel
    have hne' : ¬ Elastic b.waveVector (rotate a Real.pi (c.G0 e hkl)) := by
      rw [hG, hm1r, rotate_rotate hn, sub_add_cancel] at hne; exact hne
    have hf2 := found_of_elastic hn (T := T) (o := o) hw0 hw1 (t := l + (1 - l) * s)
      (by nlinarith) (by nlinarith) hne' hel
    have hi := (List.getElem?_eq_some_iff.mp hr.phase).1
    have hS' := hS e i hr.inPhase hi
    rw [hS', hm1d, split_call1 hn] at hcon
    obtain ⟨idx2, hrow2⟩ := mem_diffract_of hcons hc (hrefl.mpr hr) hf2 hcon
    exact ⟨_, hrow2, sameEventSecond hn (hG e hkl) hS' hVol _ _⟩

end XRD
