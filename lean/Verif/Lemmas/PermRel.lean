import Verif.Props.Phases

/-! Lists that correspond entry by entry up to their order (used by C98 and C99). -/

namespace XRD
open V3 M3 Fl Spec
open scoped Classical

variable {α β γ δ : Type}

/-- the entries of `A` and `B` correspond by `R` up to the order -/
def PermRel (R : α → β → Prop) (A : List α) (B : List β) : Prop := ∃ l, List.Forall₂ R A l ∧ l.Perm B

theorem PermRel.of_perm {R : α → β → Prop} {A A' : List α} {B : List β} (h : A.Perm A') (h' : List.Forall₂ R A' B) : PermRel R A B := by
  obtain ⟨l, h1, h2⟩ := List.perm_comp_forall₂ h h'
  exact ⟨l, h1, h2⟩

theorem PermRel.perm {R : α → β → Prop} {A A' : List α} {B : List β} (h : A.Perm A') (h' : PermRel R A' B) : PermRel R A B := by
  obtain ⟨l, h1, h2⟩ := h'
  obtain ⟨l', h3, h4⟩ := PermRel.of_perm h h1
  exact ⟨l', h3, h4.trans h2⟩

theorem PermRel.perm' {R : α → β → Prop} {A : List α} {B B' : List β} (h' : PermRel R A B) (h : B.Perm B') : PermRel R A B' := by
  obtain ⟨l, h1, h2⟩ := h'
  exact ⟨l, h1, h2.trans h⟩

theorem PermRel.append {R : α → β → Prop} {A A' : List α} {B B' : List β} (h : PermRel R A B) (h' : PermRel R A' B') : PermRel R (A ++ A') (B ++ B') := by
  obtain ⟨l, h1, h2⟩ := h
  obtain ⟨l', h3, h4⟩ := h'
  exact ⟨l ++ l', List.rel_append h1 h3, h2.append h4⟩

theorem PermRel.flatMap {R : α → β → Prop} {l : List γ} {f : γ → List α} {g : γ → List β} (h : ∀ c ∈ l, PermRel R (f c) (g c)) :
    PermRel R (l.flatMap f) (l.flatMap g) := by
  induction l with
  | nil => exact ⟨[], List.Forall₂.nil, List.Perm.refl _⟩
  | cons a l ih =>
    rw [List.flatMap_cons, List.flatMap_cons]
    exact (h a List.mem_cons_self).append (ih fun c hc => h c (List.mem_cons_of_mem _ hc))

theorem PermRel.length {R : α → β → Prop} {A : List α} {B : List β} (h : PermRel R A B) : A.length = B.length := by
  obtain ⟨l, h1, h2⟩ := h
  rw [h1.length_eq, h2.length_eq]

theorem forall₂_map_both {R : α → β → Prop} {S : γ → δ → Prop} {f : α → γ} {g : β → δ} (hRS : ∀ a b, R a b → S (f a) (g b)) {A : List α} {B : List β}
    (h : List.Forall₂ R A B) : List.Forall₂ S (A.map f) (B.map g) := by
  induction h with
  | nil => exact List.Forall₂.nil
  | cons h _ ih => exact List.Forall₂.cons (hRS _ _ h) ih

theorem PermRel.map {R : α → β → Prop} {S : γ → δ → Prop} {f : α → γ} {g : β → δ} (hRS : ∀ a b, R a b → S (f a) (g b)) {A : List α} {B : List β}
    (h : PermRel R A B) : PermRel S (A.map f) (B.map g) := by
  obtain ⟨l, h1, h2⟩ := h
  exact ⟨l.map g, forall₂_map_both hRS h1, h2.map g⟩

theorem forall₂_filter_both {R : α → β → Prop} {p : α → Bool} {q : β → Bool} (hR : ∀ a b, R a b → p a = q b) {A : List α} {B : List β}
    (h : List.Forall₂ R A B) : List.Forall₂ R (A.filter p) (B.filter q) := by
  induction h with
  | nil => exact List.Forall₂.nil
  | cons h _ ih =>
    rw [List.filter_cons, List.filter_cons, hR _ _ h]
    split_ifs
    · exact List.Forall₂.cons h ih
    · exact ih

theorem PermRel.filter {R : α → β → Prop} {p : α → Bool} {q : β → Bool} (hR : ∀ a b, R a b → p a = q b) {A : List α} {B : List β}
    (h : PermRel R A B) : PermRel R (A.filter p) (B.filter q) := by
  obtain ⟨l, h1, h2⟩ := h
  exact ⟨l.filter q, forall₂_filter_both hR h1, h2.filter q⟩

theorem forall₂_numbered (L : List (List Fl)) : List.Forall₂ (fun r row => ∃ v : Fl, row = r ++ [v]) L (L.mapIdx fun i row => row ++ [fin (i : ℝ)]) := by
  have := forall₂_mapIdx (R := Eq) (S := fun r row => ∃ v : Fl, row = r ++ [v]) (fun _ r => r) (fun (i : ℕ) (row : List Fl) => row ++ [fin (i : ℝ)])
    (fun i a b hab => ⟨fin i, by rw [hab]⟩) (A := L) (B := L) (List.forall₂_same.mpr fun _ _ => rfl)
  have e : L.mapIdx (fun _ r => r) = L := by
    apply List.ext_getElem?
    intro i; simp
  rwa [e] at this

theorem forall₂_appended {R S : List Fl → List Fl → Prop} (hRS : ∀ a b v w, R a b → S (a ++ [v]) (b ++ [w])) {A B : List (List Fl)} (h : List.Forall₂ R A B) :
    ∀ {A' B' : List (List Fl)}, List.Forall₂ (fun r row => ∃ v : Fl, row = r ++ [v]) A A' → List.Forall₂ (fun r row => ∃ v : Fl, row = r ++ [v]) B B' →
      List.Forall₂ S A' B' := by
  induction h with
  | nil => intro A' B' hA hB; cases hA; cases hB; exact List.Forall₂.nil
  | cons h _ ih =>
    intro A' B' hA hB
    cases hA with
    | cons a1 a2 =>
      cases hB with
      | cons b1 b2 =>
        obtain ⟨v, rfl⟩ := a1
        obtain ⟨w, rfl⟩ := b1
        exact List.Forall₂.cons (hRS _ _ _ _ h) (ih a2 b2)

/-- running numbers do not disturb a correspondence up to order -/
theorem PermRel.numbered {R S : List Fl → List Fl → Prop} (hRS : ∀ a b v w, R a b → S (a ++ [v]) (b ++ [w])) {A B : List (List Fl)} (h : PermRel R A B) :
    PermRel S (A.mapIdx fun i row => row ++ [fin (i : ℝ)]) (B.mapIdx fun i row => row ++ [fin (i : ℝ)]) := by
  obtain ⟨l, h1, h2⟩ := h
  obtain ⟨l', h3, h4⟩ := List.perm_comp_forall₂ h2 (forall₂_numbered B)
  exact ⟨l', forall₂_appended hRS h1 (forall₂_numbered A) h3, h4⟩

/-! ### rows of an element, plane by plane -/

/-- the reflections of a phase with the squared moduli of their structure factors (1 without structure factors) -/
noncomputable def Spec.reflections (ph : Phase) : List (HKL × ℝ) :=
  match ph.structureFactors with
  | none => ph.miller.map fun h => (h, 1)
  | some sf => ph.miller.zip (sf.map fun F => F.1 ^ 2 + F.2 ^ 2)

/-- the row of one branch for one element and plane -/
noncomputable def planeRow (pick : Fl × Fl → Fl) (c : Crystal) (b : Beam) (m : Motion) (i e : ℕ) (r : HKL × ℝ) : Option (List ℝ) :=
  let G := getG (c.orientation.getD e 0) (c.eB.getD e 0) r.1.toV
  (keepTime (laueTime (pick (laueRoots (rho0Factor b.waveVector m.axis) (rho1Factor b.waveVector m.axis)
      (rho2Factor b.waveVector m.axis) G)) m.angle)).map fun t =>
      [(e : ℝ), (i : ℝ), r.1.toV.x, r.1.toV.y, r.1.toV.z, r.2, t, G.x, G.y, G.z]

theorem zip_masked (mi : List HKL) : ∀ f : List ℝ,
    ∃ extra, (((mi.zip (f.map fun v => decide (v > 1 / 10 ^ 6))).filter (·.2)).map (·.1)) = ((mi.zip f).filter fun r => decide (r.2 > 1 / 10 ^ 6)).map (·.1) ∧
      (((f.zip (f.map fun v => decide (v > 1 / 10 ^ 6))).filter (·.2)).map (·.1)) = ((mi.zip f).filter fun r => decide (r.2 > 1 / 10 ^ 6)).map (·.2) ++ extra := by
  induction mi with
  | nil => intro f; exact ⟨_, by simp, by simp; rfl⟩
  | cons h mi ih =>
    intro f
    cases f with
    | nil => exact ⟨[], rfl, rfl⟩
    | cons v f =>
      obtain ⟨ex, h1, h2⟩ := ih f
      refine ⟨ex, ?_, ?_⟩ <;> simp only [List.map_cons, List.zip_cons_cons, List.filter_cons] <;> split_ifs <;> simp_all

theorem activePlanes_reflections (ph : Phase) : ∃ extra,
    (activePlanes ph).1 = ((reflections ph).filter fun r => decide (r.2 > 1 / 10 ^ 6)).map (·.1) ∧
    (activePlanes ph).2 = ((reflections ph).filter fun r => decide (r.2 > 1 / 10 ^ 6)).map (·.2) ++ extra := by
  unfold activePlanes reflections
  cases ph.structureFactors with
  | some sf => exact zip_masked _ _
  | none =>
    refine ⟨[], ?_, ?_⟩ <;>
    · have : (ph.miller.map fun h => (h, (1 : ℝ))).filter (fun r => decide (r.2 > 1 / 10 ^ 6)) = ph.miller.map fun h => (h, 1) := by
        apply List.filter_eq_self.mpr
        intro r hr
        obtain ⟨h, -, rfl⟩ := List.mem_map.mp hr
        norm_num
      dsimp only
      rw [this]
      simp [Function.comp_def]

theorem elemRows_planes (pick : Fl × Fl → Fl) (c : Crystal) (b : Beam) (m : Motion) (i : ℕ) (ph : Phase) (e : ℕ) :
    elemRows pick c b m i ph e = ((reflections ph).filter fun r => decide (r.2 > 1 / 10 ^ 6)).filterMap (planeRow pick c b m i e) := by
  obtain ⟨extra, h1, h2⟩ := activePlanes_reflections ph
  generalize (reflections ph).filter (fun r => decide (r.2 > 1 / 10 ^ 6)) = L at h1 h2
  have hL : L = (List.range L.length).map fun p => L.getD p (⟨0, 0, 0⟩, 0) := by
    apply List.ext_getElem
    · simp
    · intro n a1 a2
      simp [List.getD_eq_getElem?_getD, List.getElem?_eq_getElem a1]
  unfold elemRows
  rw [h1, h2]
  conv_rhs => rw [hL, List.filterMap_map]
  rw [List.length_map]
  apply List.filterMap_congr
  intro p hp
  rw [List.mem_range] at hp
  have e1 : ((L.map (·.1)).map HKL.toV).getD p 0 = (L.getD p (⟨0, 0, 0⟩, 0)).1.toV := by
    simp [List.getD_eq_getElem?_getD, List.getElem?_eq_getElem hp]
  have e2 : (L.map (·.2) ++ extra).getD p 0 = (L.getD p (⟨0, 0, 0⟩, 0)).2 := by
    rw [List.getD_eq_getElem?_getD, List.getElem?_append_left (by simpa using hp)]
    simp [List.getD_eq_getElem?_getD, List.getElem?_eq_getElem hp]
  dsimp only
  rw [e1, e2]
  rfl

end XRD
