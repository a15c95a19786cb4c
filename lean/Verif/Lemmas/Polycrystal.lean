import Verif.Model.Polycrystal
import Verif.Lemmas.Peaks
import Verif.Lemmas.Strain
import Verif.Props.Strain

namespace XRD
open V3 M3 Fl
open scoped Classical

/-- what a successful construction amounts to -/
theorem Polycrystal.new_ok {x : Xfab} {mesh : TetraMesh} {o s : MatArg} {ph : PhasesArg} {map : Option (List ℝ)} {p : Polycrystal}
    (h : Polycrystal.new x mesh o s ph map = .ok p) :
    ∃ U S kind pm eB, instantiateMat o mesh.enod.length = .ok U ∧ instantiateMat s mesh.enod.length = .ok S ∧
      instantiatePhase ph.toList map mesh.enod.length = .ok (kind, pm) ∧
      instantiateEB x mesh.enod.length U S ph.toList pm = .ok eB ∧
      p = { meshLab := mesh, meshSample := mesh, orientationLab := U, orientationSample := U,
            strainLab := S, strainSample := S, phases := ph.toList, mapKind := kind, phaseMap := pm,
            eB := eB, meshVolumes := (elements mesh.coord mesh.enod).map tetVolume } := by
  unfold Polycrystal.new at h
  dsimp only at h
  split at h
  · cases h
  rename_i U hU
  split at h
  · cases h
  rename_i S hS
  split at h
  · cases h
  rename_i kind pm hph
  split at h
  · cases h
  rename_i eB heB
  exact ⟨U, S, kind, pm, eB, hU, hS, hph, heB, (Except.ok.inj h).symm⟩

theorem Polycrystal.diffract_ok {x : Xfab} {p : Polycrystal} {b : Beam} {m : Motion} {lo hi : ℝ} {det : Option Detector}
    {d : PeaksDict} {p' : Polycrystal} (h : p.diffract x b m lo hi det = .ok (d, p')) :
    ∃ lo' hi', p.limits b lo hi det = .ok (lo', hi') ∧ p' = p.setupPhases x b.wavelength lo' hi' ∧
      diffractCore p'.crystal b m = .ok d := by
  unfold Polycrystal.diffract at h
  split at h
  · cases h
  rename_i lo' hi' hb
  split at h
  · cases h
  rename_i d' hd
  have := Except.ok.inj h
  simp only [Prod.mk.injEq] at this
  obtain ⟨rfl, rfl⟩ := this
  exact ⟨lo', hi', hb, rfl, hd⟩

/-! ### scatter -/

theorem scatter_length (acc : List M3) (idx : List ℕ) (vals : List M3) : (scatter acc idx vals).length = acc.length := by
  unfold scatter
  generalize idx.zip vals = z
  induction z generalizing acc with
  | nil => rfl
  | cons a z ih => simp [ih]

theorem scatter_cons (acc : List M3) (i : ℕ) (idx : List ℕ) (v : M3) (vals : List M3) :
    scatter acc (i :: idx) (v :: vals) = scatter (acc.set i v) idx vals := rfl

theorem scatter_getElem?_not_mem (acc : List M3) (idx : List ℕ) (vals : List M3) (e : ℕ) (he : e ∉ idx) :
    (scatter acc idx vals)[e]? = acc[e]? := by
  induction idx generalizing acc vals with
  | nil => rfl
  | cons i idx ih =>
    cases vals with
    | nil => rfl
    | cons v vals =>
      rw [scatter_cons, ih _ _ (fun h => he (List.mem_cons_of_mem _ h)), List.getElem?_set_ne]
      rintro rfl; exact he List.mem_cons_self

theorem scatter_getElem?_mem (acc : List M3) (idx : List ℕ) (vals : List M3) (hn : idx.Nodup) (hl : idx.length = vals.length)
    (j : ℕ) (hj : j < idx.length) (hb : idx[j] < acc.length) :
    (scatter acc idx vals)[idx[j]]? = vals[j]? := by
  induction idx generalizing acc vals j with
  | nil => exact absurd hj (Nat.not_lt_zero _)
  | cons i idx ih =>
    cases vals with
    | nil => simp at hl
    | cons v vals =>
      rw [scatter_cons]
      rw [List.nodup_cons] at hn
      cases j with
      | zero =>
        simp only [List.getElem_cons_zero] at hb ⊢
        rw [scatter_getElem?_not_mem _ _ _ _ hn.1]
        simp [hb]
      | succ j =>
        simp only [List.getElem_cons_succ, List.getElem?_cons_succ] at hb ⊢
        exact ih (acc.set i v) vals hn.2 (by simpa using hl) j (by simpa using hj) (by simpa using hb)

theorem grainIndices_nodup' (pm : List ℝ) (i : ℕ) : (grainIndices pm i).Nodup := by
  unfold grainIndices; exact List.Nodup.filter _ List.nodup_range

/-- one pass of the loop -/
theorem eBStep_spec {x : Xfab} {U S : List M3} {pm : List ℝ} {acc acc' : List M3} {i : ℕ} {ph : Phase}
    (h : eBStep x U S pm acc i ph = .ok acc') :
    acc'.length = acc.length ∧
    (∀ e, e ∉ grainIndices pm i → acc'[e]? = acc[e]?) ∧
    (∀ e ∈ grainIndices pm i, e < acc.length →
      ∃ B, bOfStrain ((U.getD e 0).tr * (S.getD e 0 * U.getD e 0)) (x.formB ph.unitCell) = .ok B ∧ acc'[e]? = some B) := by
  unfold eBStep at h
  dsimp only at h
  split at h
  · cases h
  rename_i bs hbs
  obtain rfl := Except.ok.inj h
  refine ⟨scatter_length _ _ _, fun e he => scatter_getElem?_not_mem _ _ _ _ he, ?_⟩
  intro e he hlt
  unfold labStrainToB epsilonToBBatch at hbs
  split_ifs at hbs
  obtain ⟨hl, hh⟩ := batch_ok hbs
  simp only [List.length_map] at hl hh
  obtain ⟨j, hj, rfl⟩ := List.getElem_of_mem he
  have hjb : j < bs.length := by rw [hl]; exact hj
  have hb := hh j hj hjb
  simp only [List.getElem_map] at hb
  refine ⟨bs[j], hb, ?_⟩
  rw [scatter_getElem?_mem _ _ _ (grainIndices_nodup' _ _) hl.symm j hj hlt, List.getElem?_eq_getElem hjb]

theorem grainIndices_unique {pm : List ℝ} {i j e : ℕ} (h1 : e ∈ grainIndices pm i) (h2 : e ∈ grainIndices pm j) : i = j := by
  rw [mem_grainIndices] at h1 h2
  rw [h1] at h2
  exact_mod_cast Option.some.inj h2

theorem eBLoop_spec {x : Xfab} {U S : List M3} {pm : List ℝ} : ∀ (ps : List Phase) (acc acc' : List M3) (i : ℕ),
    eBLoop x U S pm acc i ps = .ok acc' →
    acc'.length = acc.length ∧
    (∀ e, (∀ j < ps.length, e ∉ grainIndices pm (i + j)) → acc'[e]? = acc[e]?) ∧
    (∀ j ph, ps[j]? = some ph → ∀ e ∈ grainIndices pm (i + j), e < acc.length →
      ∃ B, bOfStrain ((U.getD e 0).tr * (S.getD e 0 * U.getD e 0)) (x.formB ph.unitCell) = .ok B ∧ acc'[e]? = some B) := by
  intro ps
  induction ps with
  | nil =>
    intro acc acc' i h
    obtain rfl := Except.ok.inj h
    exact ⟨rfl, fun _ _ => rfl, fun j ph hj => by simp at hj⟩
  | cons p ps ih =>
    intro acc acc' i h
    unfold eBLoop at h
    split at h
    · cases h
    rename_i acc1 h1
    obtain ⟨l1, n1, m1⟩ := eBStep_spec h1
    obtain ⟨l2, n2, m2⟩ := ih acc1 acc' (i + 1) h
    refine ⟨l2.trans l1, ?_, ?_⟩
    · intro e he
      rw [n2 e, n1 e (by simpa using he 0 (by simp))]
      intro j hj
      have := he (j + 1) (by simpa using hj)
      rwa [show i + 1 + j = i + (j + 1) by omega]
    · intro j ph hj e he hlt
      cases j with
      | zero =>
        simp only [List.getElem?_cons_zero, Option.some.injEq] at hj
        subst hj
        obtain ⟨B, hB, hBe⟩ := m1 e he hlt
        refine ⟨B, hB, ?_⟩
        rw [n2 e, hBe]
        intro j' _ hmem
        have := grainIndices_unique he hmem
        omega
      | succ j =>
        simp only [List.getElem?_cons_succ] at hj
        exact m2 j ph hj e (by rwa [show i + 1 + j = i + (j + 1) by omega]) (by rw [l1]; exact hlt)

theorem eBLoop_ok {x : Xfab} {U S : List M3} {pm : List ℝ} : ∀ (ps : List Phase) (acc : List M3) (i : ℕ),
    (∃ acc', eBLoop x U S pm acc i ps = .ok acc') ↔
    ∀ j ph, ps[j]? = some ph → ∃ bs, labStrainToB ((grainIndices pm (i + j)).map fun e => (S.getD e 0, U.getD e 0))
      (x.formB ph.unitCell) = .ok bs := by
  intro ps
  induction ps with
  | nil => intro acc i; simp [eBLoop]
  | cons p ps ih =>
    intro acc i
    unfold eBLoop
    constructor
    · rintro ⟨acc', h⟩ j ph hj
      split at h
      · cases h
      rename_i acc1 h1
      cases j with
      | zero =>
        simp only [List.getElem?_cons_zero, Option.some.injEq] at hj
        subst hj
        unfold eBStep at h1
        dsimp only at h1
        split at h1
        · cases h1
        rename_i bs hbs
        exact ⟨bs, hbs⟩
      | succ j =>
        simp only [List.getElem?_cons_succ] at hj
        have := (ih acc1 (i + 1)).mp ⟨acc', h⟩ j ph hj
        rwa [show i + 1 + j = i + (j + 1) by omega] at this
    · intro h
      obtain ⟨bs, hbs⟩ := h 0 p rfl
      have h1 : eBStep x U S pm acc i p = .ok (scatter acc (grainIndices pm i) bs) := by
        unfold eBStep; dsimp only; rw [show i + 0 = i from rfl] at hbs; rw [hbs]
      rw [h1]
      dsimp only
      rw [ih]
      intro j ph hj
      have := h (j + 1) ph (by simpa using hj)
      rwa [show i + (j + 1) = i + 1 + j by omega] at this

/-! ### phases -/

/-- set up a phase several times: `(wavelength, min, max)` in order -/
noncomputable def Phase.setups (x : Xfab) (ph : Phase) (l : List (ℝ × ℝ × ℝ)) : Phase :=
  l.foldl (fun p a => p.setup x a.1 a.2.1 a.2.2) ph

/-- phases without a structure file carry no structure factors -/
def Phase.Fresh (ph : Phase) : Prop := ph.cif = none → ph.structureFactors = none

theorem Phase.setup_static (x : Xfab) (ph : Phase) (a b c : ℝ) :
    (ph.setup x a b c).unitCell = ph.unitCell ∧ (ph.setup x a b c).sgname = ph.sgname ∧ (ph.setup x a b c).cif = ph.cif := by
  unfold Phase.setup
  dsimp only
  split <;> rename_i h <;> simp [h]

theorem Phase.setup_fresh {x : Xfab} {ph : Phase} (h : ph.Fresh) (a b c : ℝ) : (ph.setup x a b c).Fresh := by
  intro hc
  rw [(Phase.setup_static x ph a b c).2.2] at hc
  have := h hc
  unfold Phase.setup
  simp [hc, this]

/-- the result of a set-up depends only on what the constructor was given -/
theorem Phase.setup_eq {x : Xfab} {p q : Phase} (hp : p.Fresh) (hq : q.Fresh) (h1 : p.unitCell = q.unitCell)
    (h2 : p.sgname = q.sgname) (h3 : p.cif = q.cif) (a b c : ℝ) : p.setup x a b c = q.setup x a b c := by
  unfold Phase.Fresh at hp hq
  obtain ⟨pc, ps, pcif, pm, psf⟩ := p
  obtain ⟨qc, qs, qcif, qm, qsf⟩ := q
  simp only at *
  subst h1 h2 h3
  unfold Phase.setup
  cases pcif with
  | none => simp [hp rfl, hq rfl]
  | some f => rfl

theorem Phase.setup_setup {x : Xfab} {p : Phase} (hp : p.Fresh) (a b c a' b' c' : ℝ) :
    (p.setup x a b c).setup x a' b' c' = p.setup x a' b' c' := by
  obtain ⟨h1, h2, h3⟩ := Phase.setup_static x p a b c
  exact Phase.setup_eq (Phase.setup_fresh hp a b c) hp h1 h2 h3 _ _ _

theorem Phase.setup_consistent {x : Xfab} (hx : ∀ h cell sg cif, (x.sfBatch h cell sg cif).length = h.length)
    {ph : Phase} (hf : ph.Fresh) (a b c : ℝ) : (ph.setup x a b c).Consistent := by
  intro sf hsf
  cases hc : ph.cif with
  | none =>
    have := Phase.setup_fresh (x := x) hf a b c (by rw [(Phase.setup_static x ph a b c).2.2, hc])
    rw [this] at hsf; cases hsf
  | some f =>
    unfold Phase.setup at hsf ⊢
    simp only [hc] at hsf ⊢
    rw [← Option.some.inj hsf, hx]

end XRD
