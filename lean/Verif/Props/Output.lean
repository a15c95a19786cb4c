import Verif.Model.Output
import Verif.Props.Progress2
import Verif.Props.Nano
import Verif.Props.MacroFails

/-! C122: what a rendering prints. -/

namespace XRD
open Fl

/-- output that does not leave the terminal in the middle of a line -/
def Spec.Tidy (text : List Char) : Prop := text = [] ∨ text.getLast? = some '\n'

open Spec

/-- calls that print without failing, and stop at the end of a line; they print nothing only if there are none -/
def PrintsWell (pct : ℝ → List Char) (cs : List PrintCall) : Prop :=
  ∃ text, printCalls pct cs = .ok text ∧ Tidy text ∧ (text = [] ↔ cs = [])

theorem printCalls_append {pct : ℝ → List Char} {a b : List PrintCall} {s t : List Char} (ha : printCalls pct a = .ok s) (hb : printCalls pct b = .ok t) :
    printCalls pct (a ++ b) = .ok (s ++ t) := by
  induction a generalizing s with
  | nil => cases ha; exact hb
  | cons c a ih =>
    unfold printCalls at ha
    rw [List.cons_append]
    unfold printCalls
    cases hc : c.run pct with
    | error e => rw [hc] at ha; cases ha
    | ok u =>
      rw [hc] at ha
      cases hr : printCalls pct a with
      | error e => rw [hr] at ha; cases ha
      | ok v =>
        rw [hr] at ha
        cases ha
        rw [ih hr]
        simp

theorem PrintsWell.append {pct : ℝ → List Char} {a b : List PrintCall} (ha : PrintsWell pct a) (hb : PrintsWell pct b) : PrintsWell pct (a ++ b) := by
  obtain ⟨s, hs, ts, es⟩ := ha
  obtain ⟨t, ht, tt, et⟩ := hb
  refine ⟨_, printCalls_append hs ht, ?_, ?_⟩
  · rcases tt with rfl | tt
    · rw [List.append_nil]; exact ts
    · right; rw [List.getLast?_append, tt]; rfl
  · rw [List.append_eq_nil_iff, List.append_eq_nil_iff, es, et]

theorem PrintsWell.nil (pct : ℝ → List Char) : PrintsWell pct [] := ⟨[], rfl, Or.inl rfl, by simp⟩

/-- a call that does not fail and prints something -/
def CallOk (pct : ℝ → List Char) (c : PrintCall) : Prop := ∃ s, c.run pct = .ok s ∧ s ≠ []

theorem printsWell_of {pct : ℝ → List Char} {cs : List PrintCall} {c : PrintCall} (h : ∀ c ∈ cs, CallOk pct c) {s : List Char}
    (hc : c.run pct = .ok s) (hs : s.getLast? = some '\n') : PrintsWell pct (cs ++ [c]) := by
  have h1 : ∀ cs : List PrintCall, (∀ c ∈ cs, CallOk pct c) → ∃ t, printCalls pct cs = .ok t := by
    intro cs
    induction cs with
    | nil => exact fun _ => ⟨[], rfl⟩
    | cons d ds ih =>
      intro h
      obtain ⟨u, hu, -⟩ := h d List.mem_cons_self
      obtain ⟨v, hv⟩ := ih fun e he => h e (List.mem_cons_of_mem _ he)
      exact ⟨u ++ v, by unfold printCalls; rw [hu, hv]⟩
  obtain ⟨t, ht⟩ := h1 cs h
  have h2 : printCalls pct [c] = .ok s := by unfold printCalls; rw [hc]; simp [printCalls]
  refine ⟨_, printCalls_append ht h2, Or.inr ?_, ?_⟩
  · rw [List.getLast?_append, hs]; rfl
  · have : s ≠ [] := by rintro rfl; cases hs
    simp [this]

theorem progress_ok {pct : ℝ → List Char} {ev : ℝ × List Char} (h : ∃ line, printProgress pct ev.1 ev.2 = .ok line ∧ ProgressLine ev.2 line) :
    CallOk pct (.progress ev) := by
  obtain ⟨line, hl, -⟩ := h
  refine ⟨line ++ if ev.1 = 1 then "\n".toList else [], by unfold PrintCall.run; simp only [hl], ?_⟩
  unfold printProgress at hl
  split_ifs at hl
  cases hl
  simp

theorem progress_end {pct : ℝ → List Char} {ev : ℝ × List Char} (h : ∃ line, printProgress pct ev.1 ev.2 = .ok line ∧ ProgressLine ev.2 line)
    (h1 : ev.1 = 1) : ∃ s, (PrintCall.progress ev).run pct = .ok s ∧ s.getLast? = some '\n' := by
  obtain ⟨line, hl, -⟩ := h
  refine ⟨line ++ "\n".toList, by unfold PrintCall.run; simp only [hl, if_pos h1], ?_⟩
  rw [List.getLast?_append]; rfl

theorem line_ok (pct : ℝ → List Char) (t : List Char) : CallOk pct (.line t) := ⟨t ++ "\n".toList, rfl, by simp⟩

/-- progress that moves on to one is printed well -/
theorem printsWell_progress {pct : ℝ → List Char} {evs : List (ℝ × List Char)} (ha : Advances evs)
    (h : ∀ ev ∈ evs, ∃ line, printProgress pct ev.1 ev.2 = .ok line ∧ ProgressLine ev.2 line) : PrintsWell pct (evs.map .progress) := by
  obtain ⟨-, -, e, he, h1⟩ := ha
  obtain ⟨es, rfl⟩ := List.getLast?_eq_some_iff.mp he
  obtain ⟨s, g1, g2⟩ := progress_end (h e (by simp)) h1
  rw [List.map_append]
  refine printsWell_of ?_ g1 g2
  intro c hc
  obtain ⟨ev, hev, rfl⟩ := List.mem_map.mp hc
  exact progress_ok (h ev (by simp [hev]))

theorem macroCalls_well (pct : ℝ → List Char) (peaks : List (List Fl)) (hn : peaks.length < 10 ^ 15) :
    PrintsWell pct (Detector.macroCalls peaks) ∧ (Detector.macroCalls peaks = [] ↔ peaks = []) := by
  obtain ⟨h1, h2, -⟩ := C121_macro_progress peaks
  have he : Detector.macroCalls peaks = [] ↔ peaks = [] := by
    unfold Detector.macroCalls
    rw [List.map_eq_nil_iff, ← List.length_eq_zero_iff, h1, List.length_eq_zero_iff]
  refine ⟨?_, he⟩
  by_cases hp : peaks = []
  · rw [he.2 hp]; exact PrintsWell.nil pct
  · exact printsWell_progress (h2 hp) (C58_macro pct peaks hn)

theorem microCalls_well (pct : ℝ → List Char) (env : RenderEnv) (peaks : List (List Fl)) (hn : peaks.length < 10 ^ 15) :
    PrintsWell pct (Detector.microCalls env peaks) ∧ (Detector.microCalls env peaks = [] ↔ peaks = []) := by
  by_cases hp : peaks = []
  · subst hp
    have : Detector.microCalls env [] = [] := rfl
    rw [this]
    exact ⟨PrintsWell.nil pct, by simp⟩
  · obtain ⟨h, -⟩ := C121_micro_progress env.freeGb peaks hp
    refine ⟨printsWell_progress h (C58_micro pct env.freeGb peaks hn), ?_⟩
    obtain ⟨-, -, e, he, -⟩ := h
    simp only [hp, iff_false]
    intro h0
    unfold Detector.microCalls at h0
    rw [List.map_eq_nil_iff] at h0
    rw [h0] at he; cases he

theorem nanoCalls_well (D : Detector) (pct num : ℝ → List Char) (env : RenderEnv) (ha : IsArgsort env.argsortDesc) (peaks : List (List Fl))
    (hn : peaks.length < 10 ^ 15) :
    PrintsWell pct (D.nanoCalls env num peaks) ∧ (D.nanoCalls env num peaks = [] ↔ peaks = []) := by
  by_cases hp : peaks = []
  · subst hp
    have : D.nanoCalls env num [] = [] := by unfold Detector.nanoCalls; rw [if_pos rfl]
    rw [this]
    exact ⟨PrintsWell.nil pct, by simp⟩
  · have hperm := sortedRows_perm ha D.airyMemory peaks
    unfold Detector.nanoCalls
    rw [if_neg hp]
    simp only
    generalize hS : ((env.argsortDesc (peaks.map D.airyMemory)).map fun i => peaks.getD i []) = S
    have hSp : S.Perm peaks := by rw [← hS]; exact hperm
    have hS0 : S ≠ [] := by rintro rfl; exact hp (List.Perm.nil_eq hSp).symm
    obtain ⟨⟨-, -, e, he, h1⟩, sizes, -, -, hl, -⟩ := C121_nano_progress D (env.freeGb * 1024 ^ 3) S hS0
    have hok := C58_nano pct D (env.freeGb * 1024 ^ 3) S (by rw [hSp.length_eq]; exact hn)
    have hlen : (D.nanoBatches (env.freeGb * 1024 ^ 3) S).length = (D.nanoProgress (env.freeGb * 1024 ^ 3) S).length := by
      have gen : ∀ (n : ℕ) (ss : List ℕ) (a b : ℕ), (Detector.nanoProgressLoop n a b ss).length = ss.length := by
        intro n ss
        induction ss with
        | nil => intro a b; rfl
        | cons s ss ih => intro a b; unfold Detector.nanoProgressLoop; rw [List.length_cons, ih, List.length_cons]
      unfold Detector.nanoProgress
      rw [gen, List.length_map]
    generalize D.nanoBatches (env.freeGb * 1024 ^ 3) S = B at hlen
    generalize D.nanoProgress (env.freeGb * 1024 ^ 3) S = E at hlen he hok
    obtain ⟨es, rfl⟩ := List.getLast?_eq_some_iff.mp he
    rw [List.length_append, List.length_singleton] at hlen
    obtain ⟨bs, b, rfl⟩ : ∃ bs b, B = bs ++ [b] := by
      have : B ≠ [] := by rintro rfl; simp at hlen
      exact ⟨_, _, (List.dropLast_append_getLast this).symm⟩
    have hl2 : bs.length = es.length := by rw [List.length_append, List.length_singleton] at hlen; omega
    rw [List.zip_append hl2, List.flatMap_append]
    have hlast : (([b].zip [e]).flatMap fun be => D.radiusNote num be.1 ++ [PrintCall.progress be.2]) = D.radiusNote num b ++ [.progress e] := by simp
    rw [hlast, ← List.append_assoc]
    refine ⟨?_, by simp [hp]⟩
    obtain ⟨s, g1, g2⟩ := progress_end (hok e (by simp)) h1
    have note : ∀ b, ∀ c ∈ D.radiusNote num b, CallOk pct c := by
      intro b c hc
      unfold Detector.radiusNote at hc
      dsimp only at hc
      split_ifs at hc
      · rw [List.mem_singleton] at hc; subst hc; exact line_ok _ _
      · cases hc
    refine printsWell_of ?_ g1 g2
    intro c hc
    rcases List.mem_append.mp hc with hc | hc
    · obtain ⟨⟨b', e'⟩, hm, hc⟩ := List.mem_flatMap.mp hc
      rcases List.mem_append.mp hc with hc | hc
      · exact note _ _ hc
      · rw [List.mem_singleton] at hc; subst hc
        exact progress_ok (hok e' (by simp [(List.of_mem_zip hm).2]))
    · exact note _ _ hc

/-- C122: with `verbose=False`, or when nothing is passed and the dictionary says so, a rendering prints nothing. -/
theorem C122_silent (D : Detector) (env : RenderEnv) (pct num : ℝ → List Char) (d : PeaksDict) (frames : ℤ) (method : Detector.Method)
    (ml : Option ℝ) (mi : ℝ) (argument inDict : Option Bool) (h : argument = some false ∨ (argument = none ∧ inDict = some false)) :
    D.renderOutput env pct num argument inDict d frames method ml mi = .ok [] := by
  unfold Detector.renderOutput
  rw [if_pos]
  rcases h with rfl | ⟨rfl, rfl⟩ <;> rfl

/-- C122: otherwise printing never fails (for fewer than 10^15 hits), the output is complete lines, and it is empty exactly if no peak hits
the detector and the number of frames is not corrected. -/
theorem C122_verbose (D : Detector) (env : RenderEnv) (ha : IsArgsort env.argsortDesc) (pct num : ℝ → List Char) (d : PeaksDict) (frames : ℤ)
    (method : Detector.Method) (hm : method ≠ .other) (ml : Option ℝ) (mi : ℝ) (argument inDict : Option Bool)
    (hv : argument = some true ∨ (argument = none ∧ inDict ≠ some false)) (hn : d.peaks.length < 10 ^ 15) :
    ∃ text, D.renderOutput env pct num argument inDict d frames method ml mi = .ok text ∧ Tidy text ∧
      (text = [] ↔ (D.peaksIntersection d (max frames 1)).peaks = [] ∧ 1 ≤ frames) := by
  have hver : ¬ Detector.isVerbose argument inDict = false := by
    rcases hv with rfl | ⟨rfl, h⟩
    · simp [Detector.isVerbose]
    · rcases inDict with _ | _ | _
      · simp [Detector.isVerbose]
      · exact absurd rfl h
      · simp [Detector.isVerbose]
  have hmax : (if frames < 1 then 1 else frames) = max frames 1 := by split_ifs <;> omega
  unfold Detector.renderOutput
  rw [if_neg hver]
  simp only [hmax]
  have hlen : (D.peaksIntersection d (max frames 1)).peaks.length < 10 ^ 15 := by
    refine lt_of_le_of_lt ?_ hn
    unfold Detector.peaksIntersection
    simp only
    refine (List.length_filter_le _ _).trans ?_
    rw [List.length_map, List.length_map]
    exact (List.length_filter_le _ _).trans (by rw [List.length_map])
  generalize (D.peaksIntersection d (max frames 1)).peaks = P at hlen ⊢
  set note : List PrintCall := if frames < 1 then [.line "[Detector.render] frames_to_render < 1, setting to 1".toList] else [] with hnote
  have hnw : PrintsWell pct note := by
    rw [hnote]
    split_ifs
    · exact printsWell_of (cs := []) (by simp) rfl (by rw [List.getLast?_append]; rfl)
    · exact PrintsWell.nil pct
  have hn0 : note = [] ↔ 1 ≤ frames := by
    rw [hnote]; split_ifs with h
    · simp; omega
    · simp; omega
  have fin : ∀ cs, PrintsWell pct cs → (cs = [] ↔ P = []) → ∃ text, printCalls pct (note ++ cs) = .ok text ∧ Tidy text ∧ (text = [] ↔ P = [] ∧ 1 ≤ frames) := by
    intro cs h1 h2
    obtain ⟨t, a, b, c⟩ := hnw.append h1
    exact ⟨t, a, b, by rw [c, List.append_eq_nil_iff, h2, hn0, and_comm]⟩
  cases method with
  | «macro» => exact fin _ (macroCalls_well pct P hlen).1 (macroCalls_well pct P hlen).2
  | micro => exact fin _ (microCalls_well pct env P hlen).1 (microCalls_well pct env P hlen).2
  | nano => exact fin _ (nanoCalls_well D pct num env ha P hlen).1 (nanoCalls_well D pct num env ha P hlen).2
  | other => exact absurd rfl hm
  | auto =>
    simp only
    rw [List.append_assoc, List.append_assoc]
    have fl : ∀ p : List Fl → Bool, (P.filter p).length < 10 ^ 15 := fun p => lt_of_le_of_lt (List.length_filter_le _ _) hlen
    obtain ⟨a1, a2⟩ := macroCalls_well pct _ (fl fun r => decide (rcol r 21 ≥ ml.getD ((min D.py D.pz) ^ 3)))
    obtain ⟨b1, b2⟩ := microCalls_well pct env _ (fl fun r => decide (¬ (rcol r 21 ≥ ml.getD ((min D.py D.pz) ^ 3)) ∧ ¬ (rcol r 21 < mi)))
    obtain ⟨c1, c2⟩ := nanoCalls_well D pct num env ha _ (fl fun r => decide (rcol r 21 < mi))
    refine fin _ (a1.append (b1.append c1)) ?_
    rw [List.append_eq_nil_iff, List.append_eq_nil_iff, a2, b2, c2]
    simp only [List.filter_eq_nil_iff, decide_eq_true_eq]
    constructor
    · rintro ⟨h1, h2, h3⟩
      by_contra hP
      obtain ⟨r, hr⟩ := List.exists_mem_of_ne_nil P hP
      exact h2 r hr ⟨h1 r hr, h3 r hr⟩
    · rintro rfl; simp

theorem printProgress_breaks {pct : ℝ → List Char} (hpct : ∀ x, '\n' ∉ pct x) {ev : ℝ × List Char} (hev : '\n' ∉ ev.2) {line : List Char}
    (h : printProgress pct ev.1 ev.2 = .ok line) : line.count '\n' = 0 := by
  unfold printProgress at h
  split_ifs at h
  cases h
  rw [List.count_eq_zero]
  have e1 : '\n' ∉ "\r".toList := by decide
  have e2 : '\n' ∉ " |".toList := by decide
  have e3 : '\n' ∉ "|".toList := by decide
  have e4 : '\n' ∉ " ".toList := by decide
  have e5 : '\n' ∉ "%".toList := by decide
  have e6 : ∀ k, '\n' ∉ repeatChar ' ' k := fun k hk => absurd (List.eq_of_mem_replicate hk) (by decide)
  have e7 : ∀ k, '\n' ∉ repeatChar '█' k := fun k hk => absurd (List.eq_of_mem_replicate hk) (by decide)
  simp only [List.mem_append, not_or]
  exact ⟨⟨⟨⟨⟨⟨⟨⟨⟨e1, hev⟩, e6 _⟩, e2⟩, e7 _⟩, e6 _⟩, e3⟩, e4⟩, hpct _⟩, e5⟩

theorem bar_breaks {pct : ℝ → List Char} (hpct : ∀ x, '\n' ∉ pct x) : ∀ (evs : List (ℝ × List Char)), (∀ ev ∈ evs, '\n' ∉ ev.2) →
    ∀ t, printCalls pct (evs.map .progress) = .ok t → t.count '\n' = (evs.map fun ev => if ev.1 = 1 then 1 else 0).sum := by
  intro evs
  induction evs with
  | nil => intro _ t h; cases h; rfl
  | cons ev evs ih =>
    intro hm t h
    rw [List.map_cons] at h
    unfold printCalls at h
    unfold PrintCall.run at h
    simp only at h
    cases hl : printProgress pct ev.1 ev.2 with
    | error e => rw [hl] at h; cases h
    | ok line =>
      rw [hl] at h
      simp only at h
      cases hr : printCalls pct (evs.map .progress) with
      | error e => rw [hr] at h; cases h
      | ok u =>
        rw [hr] at h
        cases h
        rw [List.count_append, List.count_append, printProgress_breaks hpct (hm ev List.mem_cons_self) hl,
          ih (fun e he => hm e (List.mem_cons_of_mem _ he)) u hr, List.map_cons, List.sum_cons, Nat.zero_add]
        congr 1
        split_ifs <;> rfl

theorem advances_one {evs : List (ℝ × List Char)} (h : Advances evs) : (evs.map fun ev => if ev.1 = 1 then 1 else 0).sum = 1 := by
  obtain ⟨-, hp, e, he, h1⟩ := h
  obtain ⟨es, rfl⟩ := List.getLast?_eq_some_iff.mp he
  rw [List.pairwise_append] at hp
  rw [List.map_append, List.sum_append, List.map_singleton, List.sum_singleton, if_pos h1]
  have : (es.map fun ev => if ev.1 = 1 then 1 else 0).sum = 0 := by
    rw [List.sum_eq_zero_iff]
    intro x hx
    obtain ⟨ev, hev, rfl⟩ := List.mem_map.mp hx
    have := hp.2.2 ev hev e (by simp)
    rw [if_neg (by rw [h1] at this; exact ne_of_lt this)]
  rw [this]

theorem digits_noBreak (n : ℕ) : '\n' ∉ Nat.toDigits 10 n := fun h => by
  have := Nat.isDigit_of_mem_toDigits (b := 10) (by norm_num) (by norm_num) h
  revert this
  decide

/-- C122, the bar: rendering with `micro` or `macro` redraws its progress on one line, which it ends when all is done: the output has one line
break, its last character. -/
theorem C122_one_bar (D : Detector) (env : RenderEnv) (ha : IsArgsort env.argsortDesc) (pct num : ℝ → List Char) (hpct : ∀ x, '\n' ∉ pct x)
    (d : PeaksDict) (frames : ℤ) (hf : 1 ≤ frames) (method : Detector.Method) (hm : method = .micro ∨ method = .macro) (ml : Option ℝ) (mi : ℝ)
    (inDict : Option Bool) (hn : d.peaks.length < 10 ^ 15) (hp : (D.peaksIntersection d (max frames 1)).peaks ≠ []) :
    ∃ text, D.renderOutput env pct num (some true) inDict d frames method ml mi = .ok text ∧ text.count '\n' = 1 ∧ text.getLast? = some '\n' := by
  obtain ⟨text, h1, h2, h3⟩ := C122_verbose D env ha pct num d frames method (by rcases hm with rfl | rfl <;> simp) ml mi (some true) inDict (Or.inl rfl) hn
  have hne : text ≠ [] := fun h => hp (h3.1 h).1
  refine ⟨text, h1, ?_, h2.resolve_left hne⟩
  unfold Detector.renderOutput at h1
  have hmax : (if frames < 1 then 1 else frames) = max frames 1 := by split_ifs <;> omega
  rw [if_neg (by simp [Detector.isVerbose])] at h1
  simp only [hmax] at h1
  rw [if_neg (show ¬ frames < 1 by omega)] at h1
  generalize (D.peaksIntersection d (max frames 1)).peaks = P at h1 hp
  rcases hm with rfl | rfl
  · simp only [List.nil_append] at h1
    obtain ⟨a, b⟩ := C121_micro_progress env.freeGb P hp
    rw [bar_breaks hpct _ ?_ _ h1, advances_one a]
    intro ev hev
    obtain ⟨k, hk⟩ := List.mem_iff_getElem?.mp hev
    rw [b k ev hk]
    have e1 : '\n' ∉ "[Micro] Batch ".toList := by decide
    have e2 : '\n' ∉ "/".toList := by decide
    simp only [List.mem_append, not_or]
    exact ⟨⟨⟨e1, digits_noBreak _⟩, e2⟩, digits_noBreak _⟩
  · simp only [List.nil_append] at h1
    obtain ⟨-, a, b⟩ := C121_macro_progress P
    rw [bar_breaks hpct _ ?_ _ h1, advances_one (a hp)]
    intro ev hev
    obtain ⟨k, hk⟩ := List.mem_iff_getElem?.mp hev
    rw [(b k ev hk).2]
    have e1 : '\n' ∉ "[Macro] Peak ".toList := by decide
    have e2 : '\n' ∉ "/".toList := by decide
    simp only [List.mem_append, not_or]
    exact ⟨⟨⟨e1, digits_noBreak _⟩, e2⟩, digits_noBreak _⟩

/-- the hypotheses of `C122_verbose` and `C122_one_bar` hold for the one hit of `over_hits` -/
example (env : RenderEnv) (ha : IsArgsort env.argsortDesc) (pct num : ℝ → List Char) (hpct : ∀ x, '\n' ∉ pct x) :
    ∃ text, edgeDet.renderOutput env pct num (some true) none (imgDict [overRow]) 1 .micro none (1/1000) = .ok text ∧
      text.count '\n' = 1 ∧ text.getLast? = some '\n' :=
  C122_one_bar edgeDet env ha pct num hpct (imgDict [overRow]) 1 le_rfl .micro (Or.inl rfl) none (1/1000) none
    (by show ([overRow] : List (List Fl)).length < _; simp) (by rw [show max (1:ℤ) 1 = 1 from rfl, over_hits]; simp)

example : IsArgsort fun l : List ℝ => List.range l.length := fun _ => List.Perm.refl _

end XRD
