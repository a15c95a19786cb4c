import Verif.Props.Exact
import Verif.Props.Proximity
import Verif.Props.Persist
import Verif.Props.Limits

/-! Exact extents of partial properties, continued: C44, C51, C60 (with C43). -/

namespace XRD
open V3 M3 Proximity
open Classical

/-! ### C51 -/

/-- invariant of the loop after samples `0..k`: where the open interval began and where it provisionally ends -/
structure RunInv (mask : ℕ → Bool) (time : ℕ → ℝ) (k : ℕ) (st : Bool × List (ℝ × ℝ)) : Prop where
  opened : st.1 = true → ∃ s ≤ k, (∀ i, s ≤ i → i ≤ k → mask i = true) ∧ (s = 0 ∨ mask (s - 1) = false) ∧
    ∃ p l, st.2 = p :: l ∧ p.1 ≤ time s ∧ p.2 = time (s + 1) ∧ ∀ q ∈ l, q.2 ≤ time s
  closed : st.1 = false → ∀ q ∈ st.2, q.2 ≤ time (k + 1)

theorem runInv_first (mask : ℕ → Bool) (time : ℕ → ℝ) : RunInv mask time 0 (firstStep mask time) := by
  unfold firstStep
  by_cases h : mask 0 = true
  · rw [if_pos h]
    refine ⟨fun _ => ⟨0, le_rfl, ?_, .inl rfl, _, [], rfl, le_rfl, rfl, by simp⟩, by simp⟩
    intro i _ hi
    obtain rfl : i = 0 := by omega
    exact h
  · rw [if_neg h]; exact ⟨by simp, by simp⟩

theorem runInv_mid (mask : ℕ → Bool) (time : ℕ → ℝ) (hmono : Monotone time) (k : ℕ) (st : Bool × List (ℝ × ℝ))
    (hcnt : st.1 = mask k) (h : RunInv mask time k st) : RunInv mask time (k + 1) (midStep mask time st (k + 1)) := by
  obtain ⟨cnt, l⟩ := st
  obtain ⟨h1, h2⟩ := h
  simp only at h1 h2 hcnt
  unfold midStep
  simp only [Nat.add_sub_cancel]
  cases hm : mask (k + 1) <;> cases cnt <;> simp only [Bool.not_true, Bool.not_false, Bool.and_true, Bool.and_false,
    Bool.false_eq_true, if_false, if_true]
  · exact ⟨by simp, fun _ q hq => (h2 rfl q hq).trans (hmono (Nat.le_succ _))⟩
  · refine ⟨by simp, fun _ q hq => ?_⟩
    obtain ⟨s, hs, -, -, p, l', hl, -, -, h5⟩ := h1 rfl
    simp only at hl hq
    subst hl
    rcases List.mem_cons.mp hq with rfl | hq
    · exact le_rfl
    · exact (h5 q hq).trans (hmono (by omega))
  · refine ⟨fun _ => ⟨k + 1, le_rfl, ?_, .inr ?_, _, l, rfl, hmono (Nat.le_succ k), rfl, h2 rfl⟩, by simp⟩
    · intro i h3 h4
      obtain rfl : i = k + 1 := by omega
      exact hm
    · simpa using hcnt.symm
  · refine ⟨fun _ => ?_, by simp⟩
    obtain ⟨s, hs, h3, h4⟩ := h1 rfl
    refine ⟨s, by omega, ?_, h4⟩
    intro i h5 h6
    rcases Nat.lt_or_ge k i with h7 | h7
    · obtain rfl : i = k + 1 := by omega
      exact hm
    · exact h3 i h5 h7

theorem runInv_all (mask : ℕ → Bool) (time : ℕ → ℝ) (hmono : Monotone time) : ∀ k : ℕ,
    RunInv mask time k ((List.range k).foldl (fun st k => midStep mask time st (k + 1)) (firstStep mask time)) := by
  intro k
  induction k with
  | zero => exact runInv_first mask time
  | succ k ih =>
    rw [List.range_succ, List.foldl_append]
    exact runInv_mid mask time hmono k _ (loopInv_all mask time hmono k).counting ih

/-- **C51**, exact extent: for every mask of three or more samples at increasing times with some candidate, every candidate sample is
covered by one of the returned intervals unless the sphere is a candidate at the fourth, third and second last samples and no candidate
at the last one; in that case the second last sample is not covered. -/
theorem C51_covered_iff (n : ℕ) (hn : 3 ≤ n) (mask : ℕ → Bool) (time : ℕ → ℝ) (hmono : StrictMono time)
    (hsome : ∃ i < n, mask i = true) :
    ∃ l, intervals n mask time = some l ∧
      ((∀ i < n, mask i = true → Spec.Covered l (time i)) ↔
        ¬ (4 ≤ n ∧ mask (n - 4) = true ∧ mask (n - 3) = true ∧ mask (n - 2) = true ∧ mask (n - 1) = false)) ∧
      (4 ≤ n ∧ mask (n - 4) = true ∧ mask (n - 3) = true ∧ mask (n - 2) = true ∧ mask (n - 1) = false → ¬ Spec.Covered l (time (n - 2))) := by
  have hmono' := hmono.monotone
  obtain ⟨i0, hi0, hm0⟩ := hsome
  by_cases hlast : mask (n - 2) = true → mask (n - 1) = true
  · obtain ⟨l, hl, -⟩ := C51_covered_partial n hn mask time hmono' hlast i0 hi0 hm0
    refine ⟨l, hl, ⟨fun _ => ?_, fun _ i hi hm => ?_⟩, ?_⟩
    · rintro ⟨-, -, -, h1, h2⟩; rw [hlast h1] at h2; cases h2
    · obtain ⟨l', hl', hc⟩ := C51_covered_partial n hn mask time hmono' hlast i hi hm
      rw [hl] at hl'
      rwa [Option.some.inj hl']
    · rintro ⟨-, -, -, h1, h2⟩; rw [hlast h1] at h2; cases h2
  · push Not at hlast
    obtain ⟨hl1, hl2⟩ := hlast
    have hl2 : mask (n - 1) = false := by simpa using hl2
    unfold intervals
    rw [if_neg]
    swap
    · intro h
      rw [List.all_eq_true] at h
      have := h i0 (List.mem_range.mpr hi0)
      rw [hm0] at this; cases this
    refine ⟨_, rfl, ?_⟩
    obtain ⟨m, rfl⟩ : ∃ m, n = m + 2 := ⟨n - 2, by omega⟩
    have inv := loopInv_all mask time hmono' m
    have run := runInv_all mask time hmono' m
    simp only [Nat.add_sub_cancel, show m + 2 - 1 = m + 1 by omega] at hl1 hl2 ⊢
    generalize (List.range m).foldl _ _ = st at inv run ⊢
    obtain ⟨cnt, l⟩ := st
    obtain ⟨h1, h2, -, -, -⟩ := inv
    simp only at h1 h2
    rw [hl1] at h1
    subst h1
    obtain ⟨s, hs, r1, r2, p, l', hl, r3, r4, r5⟩ := run.opened rfl
    simp only at hl
    subst hl
    unfold lastStep
    simp only [show m + 2 - 1 = m + 1 by omega, hl2, Bool.false_and, Bool.false_eq_true, if_false]
    have hrev : ∀ t, Spec.Covered (p :: l').reverse t ↔ Spec.Covered (p :: l') t := by
      intro t; constructor
      · rintro ⟨q, hq, e⟩; exact ⟨q, List.mem_reverse.mp hq, e⟩
      · rintro ⟨q, hq, e⟩; exact ⟨q, List.mem_reverse.mpr hq, e⟩
    simp only [hrev]
    have huncov : s + 1 < m → ¬ Spec.Covered (p :: l') (time m) := by
      rintro hsm ⟨q, hq, -, hq2⟩
      rcases List.mem_cons.mp hq with rfl | hq
      · rw [r4] at hq2; exact absurd (hmono hsm) (not_lt.mpr hq2)
      · exact absurd (hmono (show s < m by omega)) (not_lt.mpr (hq2.trans (r5 q hq)))
    have hs2 : (4 ≤ m + 2 ∧ mask (m + 2 - 4) = true ∧ mask (m + 2 - 3) = true ∧ mask m = true ∧ True) ↔ s + 1 < m := by
      constructor
      · rintro ⟨h4, a, b, c, -⟩
        by_contra hcon
        rcases r2 with r2 | r2
        · omega
        · have : s - 1 = m + 2 - 4 ∨ s - 1 = m + 2 - 3 := by omega
          rcases this with h | h
          · rw [h, a] at r2; cases r2
          · rw [h, b] at r2; cases r2
      · intro h
        exact ⟨by omega, r1 _ (by omega) (by omega), r1 _ (by omega) (by omega), hl1, trivial⟩
    rw [hs2]
    refine ⟨⟨fun hall hcon => huncov hcon (hall m (by omega) hl1), fun hns i hi hm => ?_⟩, huncov⟩
    have him : i ≤ m := by
      rcases Nat.lt_or_ge m i with h | h
      · obtain rfl : i = m + 1 := by omega
        rw [hl2] at hm; cases hm
      · exact h
    rcases Nat.lt_or_ge i s with his | his
    · obtain ⟨q, hq, e1, e2⟩ := h2 (time m) le_rfl i him hm
      simp only [if_true, setEnd] at hq
      rcases List.mem_cons.mp hq with rfl | hq
      · exact ⟨p, List.mem_cons_self, e1, by rw [r4]; exact hmono' (by omega)⟩
      · exact ⟨q, List.mem_cons_of_mem _ hq, e1, e2⟩
    · exact ⟨p, List.mem_cons_self, r3.trans (hmono' his), by rw [r4]; exact hmono' (by omega)⟩

/-- both cases occur: the mask of `C51_leaving_at_end_fails`, and one that leaves the beam at the end after two samples -/
example : (4 ≤ 4 ∧ (fun i : ℕ => decide (i < 3)) (4 - 4) = true ∧ (fun i : ℕ => decide (i < 3)) (4 - 3) = true ∧
    (fun i : ℕ => decide (i < 3)) (4 - 2) = true ∧ (fun i : ℕ => decide (i < 3)) (4 - 1) = false) ∧
    ¬ (4 ≤ 5 ∧ (fun i : ℕ => decide (i = 2 ∨ i = 3)) (5 - 4) = true) := by decide

/-! ### C44 -/

/-- **C44**, exact extent for polycrystals: saving and loading gives the polycrystal back if and only if the phase map was given to its
constructor. -/
theorem C44_polycrystal_iff (io : MeshIO) (fs : FS) (x : Xfab) (mesh : TetraMesh) (o s : MatArg) (ph : PhasesArg) (map : Option (List ℝ))
    (p : Polycrystal) (hp : Polycrystal.new x mesh o s ph map = .ok p) (path : Path) (vis : Bool) :
    Polycrystal.load (Spec.fileFor ".pc" path) (p.save io path vis fs) = .ok p ↔ map ≠ none := by
  cases map with
  | some map => exact ⟨by simp, fun _ => C44_polycrystal_partial io fs x mesh o s ph map p hp [] path vis [] (by simp)⟩
  | none =>
    refine ⟨fun h => ?_, by simp⟩
    exfalso
    have hk : p.mapKind = .numpy := by
      obtain ⟨U, S, kind, pm, eB, hU, hS, hph, heB, rfl⟩ := Polycrystal.new_ok hp
      unfold instantiatePhase at hph
      simp only at hph
      split_ifs at hph
      have := Except.ok.inj hph; simp only [Prod.mk.injEq] at this; exact this.1.symm
    unfold Polycrystal.load at h
    rw [if_neg (not_not.mpr (fileFor_ext _ _))] at h
    split at h
    · have := Except.ok.inj h
      rw [← this] at hk
      cases hk
    · cases h
    · cases h

/-! ### C60 -/

open Fl Spec in
/-- a diffraction event that the search for events finds: element `e`, plane `hkl` of its phase, time `t` -/
def Spec.FoundEvent (c : Crystal) (b : Beam) (m : Motion) (e : ℕ) (hkl : HKL) (t : ℝ) : Prop :=
  (∃ (i n : ℕ) (ph : Phase) (w : ℝ), c.phaseMap[e]? = some (i : ℝ) ∧ c.phases[i]? = some ph ∧ UsablePlane ph n hkl w) ∧ 0 ≤ t ∧ t ≤ 1 ∧
  Elastic b.waveVector (Spec.rotate m.axis (t * m.angle) (c.G0 e hkl)) ∧ ¬ Elastic b.waveVector (Spec.rotate m.axis Real.pi (c.G0 e hkl))

open Spec in
theorem foundEvent_iff {c : Crystal} {b : Beam} {a T o : V3} {w : ℝ} (ha : nsq a = 1) (hw0 : 0 < w) (hw1 : w < Real.pi) {e : ℕ} {hkl : HKL} {t : ℝ} :
    FoundEvent c b ⟨a, w, T, o⟩ e hkl t ↔ (∃ i n ph wt, Reflection c e i ph n hkl wt) ∧ Found b ⟨a, w, T, o⟩ (c.G0 e hkl) t := by
  constructor
  · rintro ⟨⟨i, n, ph, wt, h1, h2, h3⟩, h4, h5, h6, h7⟩
    refine ⟨⟨i, n, ph, wt, h1, h2, h3⟩, found_of_elastic ha hw0 hw1 h4 h5 h7 ?_⟩
    unfold Motion.rotate1
    rw [rotMat_eq_spec ha, mul_comm]
    exact h6
  · rintro ⟨⟨i, n, ph, wt, h1, h2, h3⟩, hf⟩
    obtain ⟨g1, g2, g3⟩ := elastic_of_found ha hw0 hf
    refine ⟨⟨i, n, ph, wt, h1, h2, h3⟩, g2, g3, ?_, fun h => not_found_of_half (m := ⟨a, w, T, o⟩) ha h hf⟩
    unfold Motion.rotate1 at g1
    rw [rotMat_eq_spec ha, mul_comm] at g1
    exact g1

open Fl Spec in
/-- **C60** and **C43**, exact extent: for a polycrystal that was given its phase map, `diffract` without detector fails if and only if the
search finds exactly one event, an event at which the diffraction vector crosses the Ewald sphere transversally; and then it raises
`IndexError`.  Assumes that no phase lists a plane twice. -/
theorem C60_fails_iff (x : Xfab) (hx : ∀ h cell sg cif, (x.sfBatch h cell sg cif).length = h.length) (mesh : TetraMesh) (o s : MatArg)
    (ph : PhasesArg) (map : List ℝ) (p : Polycrystal) (hp : Polycrystal.new x mesh o s ph (some map) = .ok p)
    (hph : ∀ f ∈ p.phases, f.Fresh) (b : Beam) (a T oo : V3) (w : ℝ) (m : Motion) (hm : Motion.new a w T oo = .ok m) (ha : norm a = 1)
    (lo hi : ℝ) (hnd : ∀ f ∈ (p.setupPhases x b.wavelength lo hi).phases, f.miller.Nodup) :
    ((∃ r, p.diffract x b m lo hi none = .ok r) ∨ p.diffract x b m lo hi none = .error .indexError) ∧
    (p.diffract x b m lo hi none = .error .indexError ↔
      ∃ e hkl t, let c := (p.setupPhases x b.wavelength lo hi).crystal
        FoundEvent c b m e hkl t ∧ dot b.waveVector (cross a (rotate a (t * w) (c.G0 e hkl))) ≠ 0 ∧
        ∀ e' hkl' t', FoundEvent c b m e' hkl' t' → e' = e ∧ hkl' = hkl ∧ t' = t) := by
  obtain ⟨rfl, hw0, hw1, -⟩ := Motion.new_ok hm
  have hn : nsq a = 1 := norm_eq_one.mp ha
  have hd := C43_given_map_partial x mesh o s ph map p hp b ⟨a, w, T, oo⟩ lo hi
  have hd' := fun h => C60_other_counts_partial x mesh o s ph map p hp b ⟨a, w, T, oo⟩ lo hi h
  have hcons : ∀ ph ∈ (p.setupPhases x b.wavelength lo hi).crystal.phases, ph.Consistent := by
    intro ph h
    obtain ⟨ph0, h0, rfl⟩ := List.mem_map.mp h
    exact Phase.setup_consistent hx (hph _ h0) _ _ _
  have hnd' : ∀ f ∈ (p.setupPhases x b.wavelength lo hi).crystal.phases, f.miller.Nodup := hnd
  refine ⟨hd.imp_right And.left, ?_⟩
  have hone : p.diffract x b ⟨a, w, T, oo⟩ lo hi none = .error .indexError ↔
      (allPhaseRows (p.setupPhases x b.wavelength lo hi).crystal b ⟨a, w, T, oo⟩).length = 1 := by
    constructor
    · intro h
      by_contra hne
      obtain ⟨r, hr⟩ := hd' hne
      rw [hr] at h; cases h
    · intro h1
      rcases hd with ⟨r, hr⟩ | h
      · exfalso
        obtain ⟨lo', hi', hlim, hr2, hc⟩ := Polycrystal.diffract_ok (d := r.1) (p' := r.2) hr
        rw [hr2] at hc
        unfold Polycrystal.limits at hlim
        simp only at hlim
        obtain ⟨rfl, rfl⟩ := Prod.mk.inj (Except.ok.inj hlim)
        unfold diffractCore at hc
        cases hcp : computePeaks (p.setupPhases x b.wavelength lo hi).crystal b ⟨a, w, T, oo⟩ with
        | error e => rw [hcp] at hc; cases hc
        | ok rows =>
          unfold computePeaks at hcp
          dsimp only at hcp
          rw [if_pos h1] at hcp
          split_ifs at hcp
      · exact h.1
  rw [hone]
  generalize (p.setupPhases x b.wavelength lo hi).crystal = c at *
  simp only
  have hmem := fun r => mem_allPhaseRows (m := ⟨a, w, T, oo⟩) (b := b) hcons (r := r)
  have hphase : ∀ {e i ph n hkl wt i' ph' n' wt'}, Reflection c e i ph n hkl wt → Reflection c e i' ph' n' hkl wt' → i = i' ∧ wt = wt' := by
    intro e i ph n hkl wt i' ph' n' wt' h h'
    have hi : i = i' := by
      have := h.inPhase.symm.trans h'.inPhase
      exact_mod_cast (Option.some.inj this)
    subst hi
    have hp : ph = ph' := Option.some.inj (h.phase.symm.trans h'.phase)
    subst hp
    obtain ⟨k1, u1⟩ := h.usable
    obtain ⟨k2, u2⟩ := h'.usable
    have hnn : n = n' := by
      have hN := hnd' ph (List.mem_of_getElem? h.phase)
      obtain ⟨b1, e1⟩ := List.getElem?_eq_some_iff.mp k1
      obtain ⟨b2, e2⟩ := List.getElem?_eq_some_iff.mp k2
      exact (List.Nodup.getElem_inj_iff hN).mp (e1.trans e2.symm)
    subst hnn
    refine ⟨rfl, ?_⟩
    cases hsf : ph.structureFactors with
    | none => rw [hsf] at u1 u2; exact u1.trans u2.symm
    | some sf =>
      rw [hsf] at u1 u2
      obtain ⟨F, f1, f2, -⟩ := u1
      obtain ⟨F', f1', f2', -⟩ := u2
      rw [f1] at f1'
      obtain rfl := Option.some.inj f1'
      exact f2.trans f2'.symm
  constructor
  · intro h1
    obtain ⟨r0, hr0⟩ := List.length_eq_one_iff.mp h1
    obtain ⟨e, i, ph, n, hkl, wt, t, R, F, rfl⟩ := (hmem r0).mp (by rw [hr0]; simp)
    refine ⟨e, hkl, t, (foundEvent_iff hn hw0 hw1).mpr ⟨⟨i, n, ph, wt, R⟩, F⟩, ?_, ?_⟩
    · intro hz
      have := grazing_twice (m := ⟨a, w, T, oo⟩) hn hw0 hcons R F (by
        unfold Motion.rotate1; rw [rotMat_eq_spec hn, mul_comm]; exact hz)
      have := this.length_le
      rw [h1] at this
      simp at this
    · intro e' hkl' t' hE
      obtain ⟨⟨i', n', ph', wt', R'⟩, F'⟩ := (foundEvent_iff hn hw0 hw1).mp hE
      have := (hmem (row10 c e' i' hkl' wt' t')).mpr ⟨e', i', ph', n', hkl', wt', t', R', F', rfl⟩
      rw [hr0, List.mem_singleton] at this
      unfold row10 at this
      simp only [List.cons.injEq] at this
      obtain ⟨q0, -, q2, q3, q4, -, q6, -⟩ := this
      refine ⟨by exact_mod_cast q0, ?_, q6⟩
      apply toV_injective
      ext
      · exact q2
      · exact q3
      · exact q4
  · rintro ⟨e, hkl, t, hE, hnz, huniq⟩
    obtain ⟨⟨i, n, ph, wt, R⟩, F⟩ := (foundEvent_iff hn hw0 hw1).mp hE
    have hall : ∀ r ∈ allPhaseRows c b ⟨a, w, T, oo⟩, r = row10 c e i hkl wt t := by
      intro r hr
      obtain ⟨e', i', ph', n', hkl', wt', t', R', F', rfl⟩ := (hmem r).mp hr
      obtain ⟨rfl, rfl, rfl⟩ := huniq e' hkl' t' ((foundEvent_iff hn hw0 hw1).mpr ⟨⟨i', n', ph', wt', R'⟩, F'⟩)
      obtain ⟨rfl, rfl⟩ := hphase R' R
      rfl
    have hin := (hmem (row10 c e i hkl wt t)).mpr ⟨e, i, ph, n, hkl, wt, t, R, F, rfl⟩
    have hpw := allPhaseRows_pairwise (c := c) (b := b) (m := ⟨a, w, T, oo⟩) hn hw0 hcons hnd'
    match hL : allPhaseRows c b ⟨a, w, T, oo⟩ with
    | [] => rw [hL] at hin; simp at hin
    | [r] => rfl
    | r :: r' :: l =>
      exfalso
      rw [hL] at hpw hall
      have e1 := hall r (by simp)
      have e2 := hall r' (by simp)
      have hp2 := (List.pairwise_cons.mp hpw).1 r' (by simp)
      rw [e1, e2] at hp2
      apply hnz
      have := hp2 ⟨rfl, rfl, rfl, rfl, rfl, rfl⟩
      unfold Tangent at this
      simp only [colD, row10, List.getD_cons_zero, List.getD_cons_succ] at this
      unfold Motion.rotate1 at this
      rw [rotMat_eq_spec hn, mul_comm] at this
      exact this

end XRD
