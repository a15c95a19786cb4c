import Verif.Model.World
import Verif.Props.Scene
import Verif.Props.Detector2

/-! Properties C40, C43, C60, C38. -/

namespace XRD
open V3 M3 Fl Spec
open scoped Classical

/-! ### C40 -/

/-- every phase object is as the constructor and set-ups leave it -/
def World.Fresh (w : World) : Prop := ∀ r, (w.phase r).Fresh

/-- two states agree except for what phase set-ups store -/
structure SameUpToSetup (v w : World) : Prop where
  crystal : v.crystal = w.crystal
  cell : ∀ r, (v.phase r).unitCell = (w.phase r).unitCell
  sg : ∀ r, (v.phase r).sgname = (w.phase r).sgname
  cif : ∀ r, (v.phase r).cif = (w.phase r).cif

theorem setup_static (x : Xfab) (wl lo hi : ℝ) : ∀ (rs : List ℕ) (st : ℕ → Phase) (r : ℕ),
    (World.setup x st wl lo hi rs r).unitCell = (st r).unitCell ∧ (World.setup x st wl lo hi rs r).sgname = (st r).sgname ∧
    (World.setup x st wl lo hi rs r).cif = (st r).cif := by
  intro rs
  induction rs with
  | nil => intro st r; exact ⟨rfl, rfl, rfl⟩
  | cons a rs ih =>
    intro st r
    have := ih (Function.update st a ((st a).setup x wl lo hi)) r
    unfold World.setup
    obtain ⟨h1, h2, h3⟩ := this
    rw [h1, h2, h3]
    by_cases hr : r = a
    · subst hr
      rw [Function.update_self]
      exact Phase.setup_static x (st r) wl lo hi
    · rw [Function.update_of_ne hr]; exact ⟨rfl, rfl, rfl⟩

theorem setup_fresh (x : Xfab) (wl lo hi : ℝ) : ∀ (rs : List ℕ) (st : ℕ → Phase), (∀ r, (st r).Fresh) →
    ∀ r, (World.setup x st wl lo hi rs r).Fresh := by
  intro rs
  induction rs with
  | nil => intro st h r; exact h r
  | cons a rs ih =>
    intro st h r
    unfold World.setup
    apply ih
    intro r'
    by_cases hr : r' = a
    · subst hr; rw [Function.update_self]; exact Phase.setup_fresh (h _) _ _ _
    · rw [Function.update_of_ne hr]; exact h r'

/-- after the loop every listed phase object is as if set up once -/
theorem setup_listed (x : Xfab) (wl lo hi : ℝ) : ∀ (rs : List ℕ) (st : ℕ → Phase), (∀ r, (st r).Fresh) →
    ∀ r, World.setup x st wl lo hi rs r = if r ∈ rs then (st r).setup x wl lo hi else st r := by
  intro rs
  induction rs with
  | nil => intro st _ r; simp [World.setup]
  | cons a rs ih =>
    intro st h r
    unfold World.setup
    rw [ih]
    · by_cases hr : r = a
      · subst hr
        rw [Function.update_self, if_pos List.mem_cons_self]
        split_ifs
        · exact Phase.setup_setup (h _) _ _ _ _ _ _
        · rfl
      · rw [Function.update_of_ne hr]
        simp [hr]
    · intro r'
      by_cases hr : r' = a
      · subst hr; rw [Function.update_self]; exact Phase.setup_fresh (h _) _ _ _
      · rw [Function.update_of_ne hr]; exact h r'

/-- outcome of a diffraction in two states that differ only by earlier set-ups -/
theorem diffract_same {x : Xfab} {v w : World} (hv : v.Fresh) (hw : w.Fresh) (h : SameUpToSetup v w) (i : ℕ)
    (a : World.DiffractArgs) : (v.diffract x i a).1 = (w.diffract x i a).1 := by
  have hl : (v.view i).limits a.beam a.minB a.maxB a.det = (w.view i).limits a.beam a.minB a.maxB a.det := by
    unfold Polycrystal.limits Polycrystal.braggBounds Polycrystal.sourcePoint World.view
    rw [h.crystal]
  unfold World.diffract
  rw [hl]
  split
  · rfl
  · rename_i lo hi _
    dsimp only
    congr 2
    unfold World.view
    dsimp only
    rw [h.crystal]
    congr 1
    apply List.map_congr_left
    intro r hr
    rw [setup_listed x _ _ _ _ _ hv, setup_listed x _ _ _ _ _ hw, if_pos hr, if_pos hr]
    exact Phase.setup_eq (hv r) (hw r) (h.cell r) (h.sg r) (h.cif r) _ _ _

theorem step_fresh {x : Xfab} {w : World} (hw : w.Fresh) (op : World.Op) : (w.step x op).Fresh := by
  cases op with
  | transform i m t => exact hw
  | diffract i a =>
    show (w.diffract x i a).2.Fresh
    unfold World.diffract
    split
    · exact hw
    · exact setup_fresh _ _ _ _ _ _ hw

theorem run_fresh {x : Xfab} (h : List World.Op) {w : World} (hw : w.Fresh) : (w.run x h).Fresh := by
  induction h generalizing w with
  | nil => exact hw
  | cons op h ih => exact ih (step_fresh hw op)

/-- the polycrystal objects and the constructor data of the phases after a history are those after its transforms alone -/
theorem run_same {x : Xfab} (h : List World.Op) (v w : World) (hs : SameUpToSetup v w) :
    SameUpToSetup (v.run x h) (w.run x (h.filter fun | .transform _ _ _ => true | .diffract _ _ => false)) := by
  induction h generalizing v w with
  | nil => exact hs
  | cons op h ih =>
    cases op with
    | transform i m t =>
      rw [List.filter_cons_of_pos (by rfl)]
      apply ih
      unfold World.step World.transform
      refine ⟨?_, hs.cell, hs.sg, hs.cif⟩
      dsimp only
      rw [hs.crystal]
    | diffract i a =>
      rw [List.filter_cons_of_neg (by simp)]
      apply ih
      show SameUpToSetup (v.diffract x i a).2 w
      unfold World.diffract
      split
      · exact hs
      · rename_i lo hi _
        have hst := setup_static x a.beam.wavelength lo hi (v.crystal i).refs v.phase
        exact ⟨hs.crystal, fun r => (hst r).1.trans (hs.cell r), fun r => (hst r).2.1.trans (hs.sg r),
          fun r => (hst r).2.2.trans (hs.cif r)⟩

/-- transforms of one object do not touch the others -/
theorem run_transforms_of_other {x : Xfab} (i : ℕ) (h : List World.Op)
    (hh : ∀ op ∈ h, ∃ j m t, op = .transform j m t) (v w : World) (hp : v.phase = w.phase) (hc : v.crystal i = w.crystal i) :
    (v.run x h).phase = (w.run x (h.filter fun | .transform j _ _ => j = i | .diffract _ _ => false)).phase ∧
    (v.run x h).crystal i = (w.run x (h.filter fun | .transform j _ _ => j = i | .diffract _ _ => false)).crystal i := by
  induction h generalizing v w with
  | nil => exact ⟨hp, hc⟩
  | cons op h ih =>
    obtain ⟨j, m, t, rfl⟩ := hh op List.mem_cons_self
    have hh' : ∀ op ∈ h, ∃ j m t, op = World.Op.transform j m t := fun op ho => hh op (List.mem_cons_of_mem _ ho)
    by_cases hj : j = i
    · subst hj
      rw [List.filter_cons_of_pos (by simp)]
      apply ih hh'
      · exact hp
      · simp [World.step, World.transform, hc]
    · rw [List.filter_cons_of_neg (by simp [hj])]
      apply ih hh'
      · exact hp
      · simp only [World.step, World.transform]
        rw [Function.update_of_ne (Ne.symm hj)]; exact hc

/-- C40: the outcome of a `diffract` call (dictionary or exception) after any history of `diffract` and `transform` calls on any
polycrystals, sharing phases in any way, is the outcome after only the transforms of that polycrystal. -/
theorem C40_diffract_history_independent (x : Xfab) (w : World) (hw : w.Fresh) (h : List World.Op) (i : ℕ)
    (a : World.DiffractArgs) :
    ((w.run x h).diffract x i a).1 =
      ((w.run x (h.filter fun | .transform j _ _ => j = i | .diffract _ _ => false)).diffract x i a).1 := by
  have h1 := run_same (x := x) h w w ⟨rfl, fun _ => rfl, fun _ => rfl, fun _ => rfl⟩
  rw [diffract_same (run_fresh h hw) (run_fresh _ hw) h1]
  set h' := h.filter (fun | .transform _ _ _ => true | .diffract _ _ => false) with hh'
  have htr : ∀ op ∈ h', ∃ j m t, op = World.Op.transform j m t := by
    intro op ho
    rw [hh', List.mem_filter] at ho
    cases op with
    | transform j m t => exact ⟨j, m, t, rfl⟩
    | diffract j a => simp at ho
  have h2 := run_transforms_of_other (x := x) i h' htr w w rfl rfl
  have hf : h'.filter (fun | .transform j _ _ => decide (j = i) | .diffract _ _ => false) =
      h.filter (fun | .transform j _ _ => decide (j = i) | .diffract _ _ => false) := by
    rw [hh', List.filter_filter]
    apply List.filter_congr
    intro op _
    cases op <;> simp
  rw [hf] at h2
  obtain ⟨e1, e2⟩ := h2
  have hview : ∀ v u : World, v.phase = u.phase → v.crystal i = u.crystal i → (v.diffract x i a).1 = (u.diffract x i a).1 := by
    intro v u hp hc
    have hv : v.view i = u.view i := by unfold World.view; rw [hp, hc]
    unfold World.diffract
    rw [hv]
    split
    · rfl
    · dsimp only
      congr 2
      unfold World.view
      dsimp only
      rw [hp, hc]
  exact hview _ _ e1 e2

/-- The value-level `diffract` used in the other theorems is the object-level one. -/
theorem C40_object_level_agrees (x : Xfab) (w : World) (hw : w.Fresh) (i : ℕ) (a : World.DiffractArgs) :
    (w.diffract x i a).1 = ((w.view i).diffract x a.beam a.motion a.minB a.maxB a.det).map Prod.fst := by
  unfold World.diffract Polycrystal.diffract
  split
  · rename_i e he; rw [he]; rfl
  · rename_i lo hi hl
    rw [hl]
    dsimp only
    have : (World.view { w with phase := World.setup x w.phase a.beam.wavelength lo hi (w.crystal i).refs } i) =
        (w.view i).setupPhases x a.beam.wavelength lo hi := by
      unfold World.view Polycrystal.setupPhases
      dsimp only
      congr 1
      rw [List.map_map]
      apply List.map_congr_left
      intro r hr
      rw [setup_listed x _ _ _ _ _ hw, if_pos hr]; rfl
    rw [this]
    cases diffractCore ((w.view i).setupPhases x a.beam.wavelength lo hi).crystal a.beam a.motion <;> rfl

/-- two crystals sharing one phase object -/
noncomputable def sceneWorld : World := ⟨fun _ => scenePhase, fun _ => ⟨scenePoly, [0]⟩⟩
/-- the hypothesis of C40 holds in the scene, and its diffraction succeeds there -/
example : sceneWorld.Fresh ∧ ∃ d, (sceneWorld.diffract sceneX 1 ⟨demoBeam, demoZ, 0, Real.pi / 2, none⟩).1 = .ok d := by
  have hf : sceneWorld.Fresh := fun r _ => rfl
  refine ⟨hf, ?_⟩
  rw [C40_object_level_agrees _ _ hf]
  have h2 : Real.sqrt 2 / 2 ≤ 1 := by
    have : Real.sqrt 2 ≤ 2 := by rw [Real.sqrt_le_left (by norm_num)]; norm_num
    linarith
  obtain ⟨d, p', hd, -⟩ := scene_diffract none 0 (Real.pi / 2) 0 (Real.pi / 2) rfl
    (by rw [Real.sin_zero]; positivity) (by rw [Real.sin_pi_div_two]; exact h2)
  have hv : sceneWorld.view 1 = scenePoly := rfl
  rw [hv, hd]
  exact ⟨d, rfl⟩

/-! ### C43 -/

/-- C43 is false: a polycrystal constructed without a phase map (the documented default for one phase) can never be
diffracted; every call that passes the angle limits raises `TypeError`. -/
theorem C43_default_map_cannot_diffract_fails (x : Xfab) (mesh : TetraMesh) (o s : MatArg) (ph : Phase) (p : Polycrystal)
    (hp : Polycrystal.new x mesh o s (.one ph) none = .ok p) (b : Beam) (m : Motion) (lo hi : ℝ) :
    p.diffract x b m lo hi none = .error .typeError := by
  obtain ⟨U, S, kind, pm, eB, hU, hS, hph, heB, rfl⟩ := Polycrystal.new_ok hp
  have hk : kind = .numpy := by
    unfold instantiatePhase at hph
    simp [PhasesArg.toList] at hph
    exact hph.1.symm
  subst hk
  unfold Polycrystal.diffract Polycrystal.limits
  dsimp only
  unfold diffractCore computePeaks
  rw [if_pos]
  exact ⟨rfl, by simp [Polycrystal.setupPhases, Polycrystal.crystal, PhasesArg.toList]⟩

/-- such a polycrystal exists -/
theorem scenePoly_default_new : ∃ p, Polycrystal.new sceneX sceneMesh (.one 1) (.one 0) (.one scenePhase) none = .ok p := by
  have h := scenePoly_new
  obtain ⟨U, S, kind, pm, eB, hU, hS, hph, heB, he⟩ := Polycrystal.new_ok h
  have hpm : pm = [0] := by
    unfold instantiatePhase at hph
    have := Except.ok.inj hph; simp only [Prod.mk.injEq] at this; exact this.2.symm
  have hph2 : instantiatePhase (PhasesArg.one scenePhase).toList none sceneMesh.enod.length = .ok (.numpy, [0]) := rfl
  subst hpm
  unfold Polycrystal.new
  dsimp only
  rw [hU]; dsimp only
  rw [hS]; dsimp only
  rw [hph2]; dsimp only
  rw [heB]
  exact ⟨_, rfl⟩

/-- C43 (partial): with a phase map given to the constructor, `diffract` (without detector) never fails because of the map; it
fails only in the single-reflection case of C60. -/
theorem C43_given_map_partial (x : Xfab) (mesh : TetraMesh) (o s : MatArg) (ph : PhasesArg) (map : List ℝ) (p : Polycrystal)
    (hp : Polycrystal.new x mesh o s ph (some map) = .ok p) (b : Beam) (m : Motion) (lo hi : ℝ) :
    (∃ r, p.diffract x b m lo hi none = .ok r) ∨
    (p.diffract x b m lo hi none = .error .indexError ∧
      (allPhaseRows (p.setupPhases x b.wavelength lo hi).crystal b m).length = 1) := by
  have hk : p.mapKind = .torch := by
    obtain ⟨U, S, kind, pm, eB, hU, hS, hph, heB, rfl⟩ := Polycrystal.new_ok hp
    unfold instantiatePhase at hph
    have := Except.ok.inj hph; simp only [Prod.mk.injEq] at this; exact this.1.symm
  have hcp : ∀ c : Crystal, c.mapKind = .torch →
      computePeaks c b m = if (allPhaseRows c b m).length = 1 then .error .indexError
        else .ok ((allPhaseRows c b m).map (extendRow c b m)) := by
    intro c hc
    unfold computePeaks
    rw [if_neg (by rw [hc]; simp)]
  unfold Polycrystal.diffract Polycrystal.limits
  dsimp only
  unfold diffractCore
  rw [hcp _ hk]
  by_cases h1 : (allPhaseRows (p.setupPhases x b.wavelength lo hi).crystal b m).length = 1
  · right; rw [if_pos h1]; exact ⟨rfl, h1⟩
  · left; rw [if_neg h1]; exact ⟨_, rfl⟩

/-! ### C60 -/

/-- C60 (partial): with any number of reflections other than one, `diffract` without detector returns a dictionary. -/
theorem C60_other_counts_partial (x : Xfab) (mesh : TetraMesh) (o s : MatArg) (ph : PhasesArg) (map : List ℝ) (p : Polycrystal)
    (hp : Polycrystal.new x mesh o s ph (some map) = .ok p) (b : Beam) (m : Motion) (lo hi : ℝ)
    (h1 : (allPhaseRows (p.setupPhases x b.wavelength lo hi).crystal b m).length ≠ 1) :
    ∃ r, p.diffract x b m lo hi none = .ok r := by
  rcases C43_given_map_partial x mesh o s ph map p hp b m lo hi with h | h
  · exact h
  · exact absurd h.2 h1

/-- a lattice whose (1,0,0) diffracts once during a quarter turn: `B hkl = (0, 4/5, 4/5)` -/
noncomputable def singleB : M3 := ⟨⟨0, 1, 0⟩, ⟨4/5, 0, 0⟩, ⟨4/5, 0, 1⟩⟩

/-- C60 is false: for a crystal that the constructor accepts and that has exactly one reflection during the rotation (one
element, one plane, exactly one time in `[0,1]` at which the Laue condition holds), `diffract` raises `IndexError`. -/
theorem C60_single_reflection_fails :
    Polycrystal.new (xOf singleB) sceneMesh (.one 1) (.one 0) (.one scenePhase) (some [0]) = .ok (polyOf singleB) ∧
    (∃! t, 0 ≤ t ∧ t ≤ 1 ∧ Elastic demoBeam.waveVector (Spec.rotate demoZ.axis (t * demoZ.angle) (singleB.mulVec ⟨1, 0, 0⟩))) ∧
    (polyOf singleB).diffract (xOf singleB) demoBeam demoZ 0 (Real.pi / 2) none = .error .indexError := by
  have hp := Real.pi_pos
  have hG : singleB.mulVec ⟨1, 0, 0⟩ = ⟨0, 4/5, 4/5⟩ := by ext <;> simp [singleB, mulVec, V3.dot]
  have hell : ∀ θ : ℝ, Elastic demoBeam.waveVector (Spec.rotate demoZ.axis θ ⟨0, 4/5, 4/5⟩) ↔ Real.sin θ = 4/5 := by
    intro θ
    show Elastic ⟨1, 0, 0⟩ (Spec.rotate ⟨0, 0, 1⟩ θ _) ↔ _
    rw [elastic_iff]
    have e : Spec.rotate ⟨0, 0, 1⟩ θ ⟨0, 4/5, 4/5⟩ = ⟨-(4/5) * Real.sin θ, 4/5 * Real.cos θ, 4/5⟩ := by
      ext <;> simp [Spec.rotate, V3.cross, V3.dot] <;> ring
    rw [e]
    have hn : nsq (⟨-(4/5) * Real.sin θ, 4/5 * Real.cos θ, 4/5⟩ : V3) = 32/25 := by
      have := Real.sin_sq_add_cos_sq θ
      simp [nsq, V3.dot]; nlinarith
    rw [hn]
    simp [V3.dot]
    constructor <;> intro h <;> linarith
  have hang : demoZ.angle = Real.pi / 2 := rfl
  refine ⟨polyOf_new _, ?_, ?_⟩
  · rw [hG]
    have hs : Real.sin (Real.arcsin (4/5)) = 4/5 := Real.sin_arcsin (by norm_num) (by norm_num)
    have h0 : 0 ≤ Real.arcsin (4/5) := Real.arcsin_nonneg.mpr (by norm_num)
    have h1 : Real.arcsin (4/5) ≤ Real.pi / 2 := Real.arcsin_le_pi_div_two _
    refine ⟨Real.arcsin (4/5) / (Real.pi / 2), ⟨by positivity, by rw [div_le_one (by positivity)]; exact h1, ?_⟩, ?_⟩
    · rw [hell, hang, div_mul_cancel₀ _ (by positivity)]; exact hs
    · rintro t ⟨t0, t1, ht⟩
      rw [hell, hang] at ht
      rw [eq_div_iff (by positivity)]
      have ha : t * (Real.pi / 2) ≤ Real.pi / 2 := by nlinarith
      have hb : -(Real.pi / 2) ≤ t * (Real.pi / 2) := by nlinarith
      rw [← Real.arcsin_sin hb ha, ht]
  · have hlo : Real.sin 0 / demoBeam.wavelength ≤ norm (singleB.mulVec ⟨1, 0, 0⟩) / (4 * Real.pi) := by
      rw [Real.sin_zero, zero_div]; have := V3.norm_nonneg (singleB.mulVec ⟨1, 0, 0⟩); positivity
    have hhi : norm (singleB.mulVec ⟨1, 0, 0⟩) / (4 * Real.pi) ≤ Real.sin (Real.pi / 2) / demoBeam.wavelength := by
      have hn : norm (singleB.mulVec ⟨1, 0, 0⟩) ≤ 2 := by
        rw [hG]; unfold V3.norm
        rw [Real.sqrt_le_left (by norm_num)]; norm_num [nsq, V3.dot]
      have hw : demoBeam.wavelength = 2 * Real.pi := rfl
      rw [Real.sin_pi_div_two, hw, div_le_div_iff₀ (by positivity) (by positivity)]
      nlinarith
    have hset : scenePhase.setup (xOf singleB) demoBeam.wavelength 0 (Real.pi / 2) = ⟨[1, 1, 1, 90, 90, 90], "P1", none, [⟨1, 0, 0⟩], none⟩ := by
      unfold Phase.setup scenePhase Phase.new xOf
      dsimp only
      rw [if_pos ⟨hlo, hhi⟩]
    have hph : (polyOf singleB).setupPhases (xOf singleB) demoBeam.wavelength 0 (Real.pi / 2) =
        { polyOf singleB with phases := [⟨[1, 1, 1, 90, 90, 90], "P1", none, [⟨1, 0, 0⟩], none⟩] } := by
      simp only [Polycrystal.setupPhases, polyOf, List.map]; rw [hset]
    have hkl : HKL.toV ⟨1, 0, 0⟩ = ⟨1, 0, 0⟩ := by simp [HKL.toV]
    have hgG : getG 1 singleB ⟨1, 0, 0⟩ = ⟨0, 4/5, 4/5⟩ := by
      ext <;> simp [getG, singleB, mulVec, vecMul, V3.dot]
    have hroots : laueRoots (rho0Factor ⟨1, 0, 0⟩ ⟨0, 0, 1⟩) (rho1Factor ⟨1, 0, 0⟩ ⟨0, 0, 1⟩)
        (rho2Factor ⟨1, 0, 0⟩ ⟨0, 0, 1⟩) ⟨0, 4/5, 4/5⟩ = (fin 2, fin (1/2)) := by
      obtain ⟨h0, h1, h2⟩ := demo_rho ⟨0, 4/5, 4/5⟩
      have hn : nsq (⟨0, 4/5, 4/5⟩ : V3) = 32/25 := by norm_num [nsq, V3.dot]
      rw [laueRoots_ne (by rw [h0, h2, hn]; norm_num)]
      simp only [h0, h1, h2, hn]
      norm_num
      have hs9 : Real.sqrt 9 = 3 := by rw [show (9 : ℝ) = 3^2 by norm_num]; exact Real.sqrt_sq (by norm_num)
      have hs16 : Real.sqrt 16 = 4 := by rw [show (16 : ℝ) = 4^2 by norm_num]; exact Real.sqrt_sq (by norm_num)
      rw [hs9, hs16]; norm_num
    have hk1 : keepTime (laueTime (fin (1/2)) (Real.pi / 2)) = some (2 * Real.arctan (1/2) / (Real.pi / 2)) := by
      rw [keepTime_eq]
      refine ⟨?_, demo_time (by norm_num) (by norm_num)⟩
      simp only [laueTime, Fl.arctan_fin, Fl.mul_fin]
      rw [Fl.div_fin_ne (by positivity)]
    have hk2 : keepTime (laueTime (fin 2) (Real.pi / 2)) = none := by
      by_contra hne
      obtain ⟨t, ht⟩ := Option.ne_none_iff_exists'.mp hne
      rw [keepTime_eq] at ht
      simp only [laueTime, Fl.arctan_fin, Fl.mul_fin] at ht
      rw [Fl.div_fin_ne (by positivity)] at ht
      obtain ⟨h1, -, h3⟩ := ht
      injection h1 with h1
      rw [← h1, div_le_one (by positivity)] at h3
      have : Real.pi / 4 < Real.arctan 2 := by rw [← Real.arctan_one]; exact Real.arctan_strictMono (by norm_num)
      linarith
    have hg : grainIndices [0] 0 = [0] := by simp [grainIndices, List.range_succ]
    unfold Polycrystal.diffract Polycrystal.limits
    dsimp only
    rw [hph]
    unfold diffractCore computePeaks
    rw [if_neg (by simp [Polycrystal.crystal, polyOf])]
    dsimp only
    rw [if_pos]
    unfold allPhaseRows phaseRows
    simp only [Polycrystal.crystal, polyOf, List.length_singleton, List.range_one, List.flatMap_cons, List.flatMap_nil, List.append_nil,
      List.getElem?_cons_zero, hg, activePlanes, List.map_cons, List.map_nil, List.getD_cons_zero, hkl]
    simp only [laueSolutions, laueBranch, List.length_singleton, List.range_one, List.flatMap_cons, List.flatMap_nil,
      List.append_nil, demoBeam, demoZ, List.getD_cons_zero, List.filterMap_cons, List.filterMap_nil, hgG, hroots, hk1, hk2,
      Option.map_some, Option.map_none]
    simp

end XRD
