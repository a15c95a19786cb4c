import Verif.Props.IntersectFails
import Verif.Props.BeamHull

/-! Property C112: the order and the repetition of the facets qhull lists do not matter when a hull is clipped to the beam. -/

namespace XRD.Spec
open XRD V3
/-- two hulls are the same up to the order and the repetition of their facet equations -/
def SameHull (A B : Hull) : Prop := A.points = B.points ∧ A.volume = B.volume ∧ ∀ e, e ∈ A.equations ↔ e ∈ B.equations
/-- two calls of qhull end alike: the same exception, or the same hull up to order and repetition of facets -/
def SameCall : Except PyErr Hull → Except PyErr Hull → Prop
  | .ok A, .ok B => SameHull A B
  | .error e, .error e' => e = e'
  | _, _ => False
/-- two clippings end alike -/
def SameClip : Except PyErr (Option Hull) → Except PyErr (Option Hull) → Prop
  | .ok (some A), .ok (some B) => SameHull A B
  | .ok none, .ok none => True
  | .error e, .error e' => e = e'
  | _, _ => False
/-- dictionary order of facet equations: the first entry in which they differ decides -/
def Before (a b : HalfSpace) : Prop := toLex (a.n.x, toLex (a.n.y, toLex (a.n.z, a.d))) < toLex (b.n.x, toLex (b.n.y, toLex (b.n.z, b.d)))
end XRD.Spec

namespace XRD
open V3 M3 Spec
open scoped Classical

theorem lexLe_total (a b : HalfSpace) : HalfSpace.lexLe a b ∨ HalfSpace.lexLe b a := by
  unfold HalfSpace.lexLe
  rcases lt_trichotomy a.n.x b.n.x with h | h | h <;> rcases lt_trichotomy a.n.y b.n.y with h' | h' | h' <;>
    rcases lt_trichotomy a.n.z b.n.z with h'' | h'' | h'' <;> rcases le_total a.d b.d with h3 | h3 <;> simp [*]

theorem lexLe_iff (a b : HalfSpace) : HalfSpace.lexLe a b ↔ Before a b ∨ a = b := by
  unfold HalfSpace.lexLe Before
  simp only [Prod.Lex.toLex_lt_toLex]
  obtain ⟨⟨a1, a2, a3⟩, a4⟩ := a
  obtain ⟨⟨b1, b2, b3⟩, b4⟩ := b
  simp only [HalfSpace.mk.injEq, V3.mk.injEq, le_iff_lt_or_eq]
  tauto

theorem before_trans {a b c : HalfSpace} (h : Before a b) (h' : Before b c) : Before a c := lt_trans h h'
theorem before_asymm {a b : HalfSpace} (h : Before a b) (h' : Before b a) : False := lt_asymm h h'

theorem lexLe_trans (a b c : HalfSpace) (h : HalfSpace.lexLe a b) (h' : HalfSpace.lexLe b c) : HalfSpace.lexLe a c := by
  rw [lexLe_iff] at *
  rcases h with h | rfl
  · rcases h' with h' | rfl
    · exact .inl (before_trans h h')
    · exact .inl h
  · exact h'

theorem uniqueRows_pairwise (l : List HalfSpace) : (uniqueRows l).Pairwise Before := by
  have h1 : (uniqueRows l).Pairwise fun a b => HalfSpace.lexLe a b := by
    have := List.pairwise_mergeSort (le := fun a b : HalfSpace => decide (HalfSpace.lexLe a b))
      (by simpa using lexLe_trans) (by simpa using lexLe_total) l.dedup
    simpa [uniqueRows] using this
  have h2 : (uniqueRows l).Nodup := ((List.mergeSort_perm _ _).nodup_iff).mpr (List.nodup_dedup l)
  refine (h1.and h2).imp ?_
  rintro a b ⟨h, hne⟩
  exact ((lexLe_iff a b).mp h).resolve_right hne

theorem pairwise_before_ext {l l' : List HalfSpace} (h : l.Pairwise Before) (h' : l'.Pairwise Before) (hm : ∀ e, e ∈ l ↔ e ∈ l') : l = l' := by
  have hnd : ∀ {k : List HalfSpace}, k.Pairwise Before → k.Nodup := fun hk => hk.imp fun {a b} hab e => by
    subst e; exact before_asymm hab hab
  have hp : l.Perm l' := (List.perm_ext_iff_of_nodup (hnd h) (hnd h')).mpr hm
  exact hp.eq_of_pairwise (fun a b _ _ hab hba => (before_asymm hab hba).elim) h h'

/-- C112: the half-spaces handed to qhull are the facet equations rounded to six decimals, each once and in dictionary order, then the
half-spaces of the beam. -/
theorem C112_rows_handed_over (b : Beam) (H : Hull) :
    ∃ rows, b.combined H = rows ++ b.halfspaces ∧ rows.Pairwise Before ∧
      ∀ r, r ∈ rows ↔ ∃ e ∈ H.equations, SixDecimals e.n.x r.n.x ∧ SixDecimals e.n.y r.n.y ∧ SixDecimals e.n.z r.n.z ∧ SixDecimals e.d r.d := by
  refine ⟨_, rfl, uniqueRows_pairwise _, fun r => ?_⟩
  rw [mem_uniqueRows, List.mem_map]
  constructor
  · rintro ⟨e, he, rfl⟩
    exact ⟨e, he, sixDecimals_round6 _, sixDecimals_round6 _, sixDecimals_round6 _, sixDecimals_round6 _⟩
  · obtain ⟨⟨r1, r2, r3⟩, r4⟩ := r
    rintro ⟨e, he, h1, h2, h3, h4⟩
    refine ⟨e, he, ?_⟩
    unfold HalfSpace.round6
    rw [sixDecimals_unique (sixDecimals_round6 e.n.x) h1, sixDecimals_unique (sixDecimals_round6 e.n.y) h2,
      sixDecimals_unique (sixDecimals_round6 e.n.z) h3, sixDecimals_unique (sixDecimals_round6 e.d) h4]

theorem combined_same (b : Beam) {A B : Hull} (h : SameHull A B) : b.combined A = b.combined B := by
  obtain ⟨r1, e1, p1, m1⟩ := C112_rows_handed_over b A
  obtain ⟨r2, e2, p2, m2⟩ := C112_rows_handed_over b B
  rw [e1, e2, pairwise_before_ext p1 p2 fun e => by rw [m1, m2]; simp only [h.2.2]]

/-- **C112** Two versions of scipy that differ only in the order in which `ConvexHull` lists its facets and in how often it repeats a
facet (as it does for facets it splits into triangles) clip every polyhedron to the beam alike: the same exception, no overlap for both,
or the same points and volume and the same facets. -/
theorem C112_facet_order (S S' : Scipy) (b : Beam) (hh : ∀ vs, SameCall (S.convexHull vs) (S'.convexHull vs))
    (hi : S.halfspaceIntersection = S'.halfspaceIntersection) (hl : S.linprog = S'.linprog) (vs : List V3) :
    SameClip (b.intersect S vs) (b.intersect S' vs) := by
  have hv := hh vs
  unfold Beam.intersect
  cases h1 : S.convexHull vs with
  | error e =>
    cases h2 : S'.convexHull vs with
    | ok B => rw [h1, h2] at hv; exact hv.elim
    | error e' =>
      rw [h1, h2] at hv
      obtain rfl : e = e' := hv
      split_ifs <;> rfl
  | ok A =>
    cases h2 : S'.convexHull vs with
    | error e' => rw [h1, h2] at hv; exact hv.elim
    | ok B =>
      rw [h1, h2] at hv
      have hAB : SameHull A B := hv
      split_ifs with hin
      · exact hAB
      have hp : b.interiorPoint S A vs = b.interiorPoint S' B vs := by
        unfold Beam.interiorPoint findFeasible
        rw [hl, combined_same b hAB]
      dsimp only
      rw [hp, hi, combined_same b hAB]
      cases b.interiorPoint S' B vs with
      | error e => rfl
      | ok o =>
        cases o with
        | none => exact True.intro
        | some p =>
          dsimp only
          cases S'.halfspaceIntersection (b.combined B) p with
          | error e => rfl
          | ok pts =>
            dsimp only
            have h' := hh pts
            cases h3 : S.convexHull pts with
            | error e =>
              cases h4 : S'.convexHull pts with
              | ok B => rw [h3, h4] at h'; exact h'.elim
              | error e' => rw [h3, h4] at h'; exact h'
            | ok C =>
              cases h4 : S'.convexHull pts with
              | error e' => rw [h3, h4] at h'; exact h'.elim
              | ok D => rw [h3, h4] at h'; exact h'

/-- C112 is not vacuous: the clipped tetrahedron of C57, with qhull listing every facet twice and backwards -/
example : ∃ S' : Scipy, S'.convexHull (cornerPts 0 10 8 (15 / 2)) ≠ slantScipy.convexHull (cornerPts 0 10 8 (15 / 2)) ∧
    (∀ vs, SameCall (slantScipy.convexHull vs) (S'.convexHull vs)) ∧
    (¬ ∀ v ∈ cornerPts 0 10 8 (15 / 2), slantBeam.contains v) ∧
    ∃ H, slantBeam.intersect S' (cornerPts 0 10 8 (15 / 2)) = .ok (some H) := by
  let S' : Scipy := { slantScipy with convexHull := fun vs => (slantScipy.convexHull vs).map fun H =>
    { H with equations := H.equations.reverse ++ H.equations } }
  have hsame : ∀ vs, SameCall (slantScipy.convexHull vs) (S'.convexHull vs) := by
    intro vs
    show SameCall _ ((slantScipy.convexHull vs).map _)
    cases h : slantScipy.convexHull vs with
    | error e => rfl
    | ok A => exact ⟨rfl, rfl, fun e => by simp⟩
  refine ⟨S', ?_, hsame, ?_, ?_⟩
  · show (slantScipy.convexHull _).map _ ≠ _
    cases h : slantScipy.convexHull (cornerPts 0 10 8 (15 / 2)) with
    | error e =>
      have := slant_intersect
      unfold Beam.intersect at this
      rw [h] at this
      simp at this
    | ok A =>
      simp only [slantScipy, if_true, Except.ok.injEq] at h
      rw [← h]
      intro e
      have := congrArg (fun r : Except PyErr Hull => match r with | .ok H => H.equations.length | .error _ => 0) e
      simp [Except.map, slant_big] at this
  · intro h
    have := h (0 + ⟨10, 0, 0⟩) (by simp [cornerPts])
    simp only [Beam.contains, slantBeam, List.forall_mem_cons, V3.dot] at this
    norm_num at this
  · have := C112_facet_order slantScipy S' slantBeam hsame rfl rfl (cornerPts 0 10 8 (15 / 2))
    rw [slant_intersect] at this
    cases h : slantBeam.intersect S' (cornerPts 0 10 8 (15 / 2)) with
    | error e => rw [h] at this; exact this.elim
    | ok o => cases o with
      | none => rw [h] at this; exact this.elim
      | some H => exact ⟨H, rfl⟩

end XRD
