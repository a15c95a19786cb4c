import Verif.Props.Covariance

/-! Lemmas for property C73: a scan taken in two parts. -/

namespace XRD
open V3 M3 Fl
open scoped Classical

/-! ### the first part: the same list of solutions on another clock -/

/-- time on the clock of the first part -/
noncomputable def reclock (l t : ℝ) : Option ℝ := if t ≤ l then some (t / l) else none

theorem keepTime_split (s : Fl) {w l : ℝ} (hw : 0 < w) (hl0 : 0 < l) (hl1 : l ≤ 1) :
    keepTime (laueTime s (l * w)) = (keepTime (laueTime s w)).bind (reclock l) := by
  have hlw : l * w ≠ 0 := (mul_pos hl0 hw).ne'
  have key : ∀ x : ℝ, keepTime (fin (2 * x / (l * w))) = (keepTime (fin (2 * x / w))).bind (reclock l) := by
    intro x
    have e : 2 * x / (l * w) = 2 * x / w / l := by field_simp
    rw [e]
    set y := 2 * x / w
    unfold keepTime
    simp only [Fl.le_fin]
    by_cases h0 : 0 ≤ y
    · by_cases h1 : y ≤ l
      · have a : 0 ≤ y / l ∧ y / l ≤ 1 := ⟨div_nonneg h0 hl0.le, by rw [div_le_one hl0]; exact h1⟩
        rw [if_pos a, if_pos ⟨h0, h1.trans hl1⟩]
        simp [reclock, h1]
      · have a : ¬ (0 ≤ y / l ∧ y / l ≤ 1) := by
          rintro ⟨-, h⟩; rw [div_le_one hl0] at h; exact h1 h
        rw [if_neg a]
        split_ifs
        · simp [reclock, h1]
        · rfl
    · have a : ¬ (0 ≤ y / l ∧ y / l ≤ 1) := by
        rintro ⟨h, -⟩
        rw [le_div_iff₀ hl0, MulZeroClass.zero_mul] at h
        exact h0 h
      rw [if_neg a, if_neg (fun h => h0 h.1)]
      rfl
  unfold laueTime
  cases s with
  | fin r => rw [Fl.arctan_fin, Fl.mul_fin, Fl.div_fin_ne hlw, Fl.div_fin_ne hw.ne']; exact key _
  | pinf => 
    simp only [Fl.arctan, Fl.mul_fin]; rw [Fl.div_fin_ne hlw, Fl.div_fin_ne hw.ne']; exact key _
  | ninf => 
    simp only [Fl.arctan, Fl.mul_fin]; rw [Fl.div_fin_ne hlw, Fl.div_fin_ne hw.ne']; exact key _
  | nan => simp [Fl.arctan, keepTime]


theorem split_laueBranch (pick : Fl × Fl → Fl) (G0 : List (List V3)) (f0 f1 f2 : V3) {w l : ℝ} (hw : 0 < w) (hl0 : 0 < l) (hl1 : l ≤ 1) :
    laueBranch pick G0 f0 f1 f2 (l * w) =
      (laueBranch pick G0 f0 f1 f2 w).filterMap fun s => (reclock l s.time).map fun t => { s with time := t } := by
  unfold laueBranch
  rw [List.filterMap_flatMap]
  congr 1
  funext g
  rw [List.filterMap_filterMap]
  congr 1
  funext p
  dsimp only
  rw [keepTime_split _ hw hl0 hl1]
  cases keepTime (laueTime (pick (laueRoots f0 f1 f2 ((G0.getD g []).getD p 0))) w) <;> rfl

theorem split_laueSolutions (G0 : List (List V3)) (f0 f1 f2 : V3) {w l : ℝ} (hw : 0 < w) (hl0 : 0 < l) (hl1 : l ≤ 1) :
    laueSolutions G0 f0 f1 f2 (l * w) =
      (laueSolutions G0 f0 f1 f2 w).filterMap fun s => (reclock l s.time).map fun t => { s with time := t } := by
  unfold laueSolutions
  rw [split_laueBranch _ _ _ _ _ hw hl0 hl1, split_laueBranch _ _ _ _ _ hw hl0 hl1, List.filterMap_append]

/-- a ten-column row on the clock of the first part -/
noncomputable def rowClock (l : ℝ) (r : List ℝ) : Option (List ℝ) := (reclock l (colD r 6)).map fun t => r.set 6 t

section
variable (c : Crystal) (b : Beam) {m m1 : Motion} {l : ℝ} (hw : 0 < m.angle) (hl0 : 0 < l) (hl1 : l ≤ 1)
  (ha : m1.axis = m.axis) (hang : m1.angle = l * m.angle) (hT : m1.translation = l • m.translation) (ho : m1.origin = m.origin)
include hw hl0 hl1 ha hang

theorem split_phaseRows (i : ℕ) (ph : Phase) : phaseRows c b m1 i ph = (phaseRows c b m i ph).filterMap (rowClock l) := by
  unfold phaseRows
  dsimp only
  rw [ha, hang, split_laueSolutions _ _ _ _ hw hl0 hl1, List.map_filterMap, List.filterMap_map]
  congr 1
  funext s
  simp only [Function.comp, rowClock, colD]
  rw [Option.map_map]
  rfl

theorem split_allPhaseRows : allPhaseRows c b m1 = (allPhaseRows c b m).filterMap (rowClock l) := by
  unfold allPhaseRows
  rw [List.filterMap_flatMap]
  congr 1
  funext i
  cases c.phases[i]? with
  | none => rfl
  | some ph => exact split_phaseRows c b hw hl0 hl1 ha hang i ph

theorem allPhaseRows_length10 {r : List ℝ} (h : r ∈ allPhaseRows c b m) : r.length = 10 := by
  unfold allPhaseRows at h
  rw [List.mem_flatMap] at h
  obtain ⟨i, -, h⟩ := h
  cases hp : c.phases[i]? with
  | none => rw [hp] at h; cases h
  | some ph =>
    rw [hp] at h
    unfold phaseRows at h
    simp only [List.mem_map] at h
    obtain ⟨s, -, rfl⟩ := h
    rfl

omit hw hl1 in
include hT ho in
theorem split_extendRow {r : List ℝ} (hr : r.length = 10) : extendRow c b m1 (r.set 6 (colD r 6 / l)) =
    (extendRow c b m r).set 6 (fin (colD r 6 / l)) := by
  match r, hr with
  | [a0, a1, a2, a3, a4, a5, a6, a7, a8, a9], _ =>
    have e1 : l * m.angle * (a6 / l) = m.angle * a6 := by field_simp
    have e2 : (a6 / l) • (l • m.translation) = a6 • m.translation := by
      ext <;> simp <;> field_simp
    simp only [extendRow, colD, List.getD_eq_getElem?_getD, List.set_cons_succ, List.set_cons_zero, List.getElem?_cons_succ,
      List.getElem?_cons_zero, Option.getD_some, Motion.rotate1, Motion.call1, ha, hang, hT, ho, e1, e2, List.map_cons, List.map_nil,
      List.cons_append, List.nil_append]
end

end XRD
