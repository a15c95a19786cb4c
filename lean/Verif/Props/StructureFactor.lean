import Verif.Model.StructureFactor
import Mathlib.Analysis.SpecialFunctions.Trigonometric.Basic
import Mathlib.Analysis.SpecialFunctions.Complex.Circle

/-! C53, C69: structure factors. -/

namespace XRD
open V3 M3

namespace Spec

/-- The metric tensor of the unit cell `[a, b, c, α, β, γ]` with angles in degrees. -/
noncomputable def cellMetric (cell : List ℝ) : M3 :=
  let a := cell.getD 0 0
  let b := cell.getD 1 0
  let c := cell.getD 2 0
  let cosd := fun x : ℝ => Real.cos (x * Real.pi / 180)
  let α := cell.getD 3 0
  let β := cell.getD 4 0
  let γ := cell.getD 5 0
  ⟨⟨a * a, a * b * cosd γ, a * c * cosd β⟩, ⟨a * b * cosd γ, b * b, b * c * cosd α⟩, ⟨a * c * cosd β, b * c * cosd α, c * c⟩⟩

/-- A cell that exists: positive edges and a positive volume. -/
def ValidCell (cell : List ℝ) : Prop :=
  0 < cell.getD 0 0 ∧ 0 < cell.getD 1 0 ∧ 0 < cell.getD 2 0 ∧ 0 < (cellMetric cell).det

/-- `sin θ / λ = 1 / (2 d)` where `1 / d² = h G⁻¹ h`. -/
noncomputable def sinThetaOverLambda (cell : List ℝ) (h : V3) : ℝ :=
  Real.sqrt (dot h ((cellMetric cell).inv.mulVec h)) / 2

/-- the atomic scattering factor: four gaussians and a constant -/
noncomputable def scatteringFactor (f : FormCoeffs) (s : ℝ) : ℝ :=
  ([(f.a.a, f.b.a), (f.a.b, f.b.b), (f.a.c, f.b.c), (f.a.d, f.b.d)].map fun ab => ab.1 * Real.exp (-ab.2 * s ^ 2)).sum + f.c

/-- the temperature factor of an atom whose site was moved by a rotation `R`, at reflection `h`;
`cs` is `(a*, b*, c*)` and `s` is `sin θ / λ` -/
noncomputable def temperatureFactor (cs : V3) (s : ℝ) (R : M3) (h : V3) : Adp → ℝ
  | .none => 1
  | .uiso u => Real.exp (-8 * Real.pi ^ 2 * u * s ^ 2)
  | .uani u11 u22 u33 u23 u13 u12 =>
    let p := R.tr.mulVec h
    Real.exp (-2 * Real.pi ^ 2 * (u11 * (p.x * cs.x) ^ 2 + u22 * (p.y * cs.y) ^ 2 + u33 * (p.z * cs.z) ^ 2
      + 2 * u23 * (p.y * cs.y) * (p.z * cs.z) + 2 * u13 * (p.x * cs.x) * (p.z * cs.z) + 2 * u12 * (p.x * cs.x) * (p.y * cs.y)))

/-- the complex scattering factor `f + f' + i f''` of an atom type -/
noncomputable def complexFactor (lib : CrystalLib) (ty : String) (s : ℝ) : ℂ :=
  (((lib.formfactor ty).map fun c => scatteringFactor c s).getD 0 : ℝ) + (((lib.dispersion ty).getD (0, 0)).1 : ℝ)
    + (((lib.dispersion ty).getD (0, 0)).2 : ℝ) * Complex.I

/-- The contribution of an atom of the asymmetric unit to the structure factor of `h`. -/
noncomputable def atomF (lib : CrystalLib) (ops : List SymOp) (cell : List ℝ) (h : V3) (a : Atom) : ℂ :=
  (a.occ * a.symmulti / ops.length : ℝ) * (ops.map fun g =>
    (temperatureFactor (lib.cellStar cell) (sinThetaOverLambda cell h) g.rot h a.adp : ℂ)
      * complexFactor lib a.atomtype (sinThetaOverLambda cell h)
      * Complex.exp (2 * Real.pi * Complex.I * (dot h (g.rot.mulVec a.pos + g.trans) : ℝ))).sum

/-- The structure factor of `h`: the sum over the atoms. -/
noncomputable def structureFactor (lib : CrystalLib) (ops : List SymOp) (atoms : List Atom) (cell : List ℝ) (h : V3) : ℂ :=
  (atoms.map (atomF lib ops cell h)).sum

end Spec

theorem sintl_eq_spec {cell : List ℝ} (hv : Spec.ValidCell cell) (h : V3) : sintl cell h = Spec.sinThetaOverLambda cell h := by
  obtain ⟨ha, hb, hc, hd⟩ := hv
  revert ha hb hc hd
  simp only [Spec.sinThetaOverLambda, sintl, Spec.cellMetric]
  generalize cell.getD 0 0 = a
  generalize cell.getD 1 0 = b
  generalize cell.getD 2 0 = c
  generalize Real.cos (cell.getD 3 0 * Real.pi / 180) = ca
  generalize Real.cos (cell.getD 4 0 * Real.pi / 180) = cb
  generalize Real.cos (cell.getD 5 0 * Real.pi / 180) = cg
  intro ha hb hc hd
  have hdet : M3.det ⟨⟨a * a, a * b * cg, a * c * cb⟩, ⟨a * b * cg, b * b, b * c * ca⟩, ⟨a * c * cb, b * c * ca, c * c⟩⟩
      = (a * b * c) ^ 2 * (1 - (ca ^ 2 + cb ^ 2 + cg ^ 2) + 2 * ca * cb * cg) := by
    simp only [M3.det]; ring
  rw [hdet] at hd
  have hp : 0 < 1 - (ca ^ 2 + cb ^ 2 + cg ^ 2) + 2 * ca * cb * cg := by
    rcases pos_and_pos_or_neg_and_neg_of_mul_pos hd with h | h
    · exact h.2
    · nlinarith [sq_nonneg (a * b * c), h.1]
  have hq : ∀ P1 : ℝ, Real.sqrt P1 / (2 * Real.sqrt (1 - (ca ^ 2 + cb ^ 2 + cg ^ 2) + 2 * ca * cb * cg))
      = Real.sqrt (P1 / (1 - (ca ^ 2 + cb ^ 2 + cg ^ 2) + 2 * ca * cb * cg)) / 2 := by
    intro P1
    rw [Real.sqrt_div' _ hp.le]
    field_simp
  rw [hq]
  congr 2
  simp only [M3.inv, hdet, M3.mulVec, V3.dot, smul_r0, smul_r1, smul_r2, smul_x, smul_y, smul_z]
  have hp' := hp.ne'
  generalize 1 - (ca ^ 2 + cb ^ 2 + cg ^ 2) + 2 * ca * cb * cg = D at hp' ⊢
  field_simp
  ring

/-! ### The batched computation is the sum over atoms and symmetry operations -/

theorem sf_range_map {α β : Type} [Inhabited α] (l : List α) (f : α → β) :
    ((List.range l.length).map fun i => f (l.getD i default)) = l.map f := by
  apply List.ext_getElem
  · simp
  · intro i h1 h2
    simp at h1
    simp [List.getD, h1]

theorem sf_range_map0 {β : Type} (l : List V3) (f : V3 → β) :
    ((List.range l.length).map fun i => f (l.getD i 0)) = l.map f := by
  apply List.ext_getElem
  · simp
  · intro i h1 h2
    simp at h1
    simp [List.getD, h1]

theorem sf_filter_sum {α : Type} (l : List α) (p : α → Bool) (f : α → ℝ) :
    ((l.filter fun a => !p a).map f).sum + ((l.filter p).map f).sum = (l.map f).sum := by
  induction l with
  | nil => simp
  | cons a t ih =>
    simp only [List.filter_cons, List.map_cons, List.sum_cons]
    cases h : p a <;> simp <;> linarith

theorem sf_foldl (l : List ℕ) (f : ℕ → ℝ × ℝ) (z : ℝ × ℝ) :
    l.foldl (fun acc i => (acc.1 + (f i).1, acc.2 + (f i).2)) z
      = (z.1 + (l.map fun i => (f i).1).sum, z.2 + (l.map fun i => (f i).2).sum) := by
  induction l generalizing z with
  | nil => simp
  | cons a t ih => rw [List.foldl_cons, ih]; simp only [List.map_cons, List.sum_cons, Prod.mk.injEq]; constructor <;> ring

theorem sf_re_sum {α : Type} (l : List α) (f : α → ℂ) : ((l.map f).sum).re = (l.map fun a => (f a).re).sum := by
  induction l with
  | nil => simp
  | cons a t ih => simp [ih]

theorem sf_im_sum {α : Type} (l : List α) (f : α → ℂ) : ((l.map f).sum).im = (l.map fun a => (f a).im).sum := by
  induction l with
  | nil => simp
  | cons a t ih => simp [ih]

/-- real and imaginary part of one term of the sum -/
theorem sf_term (t p fr fi : ℝ) (z : ℂ) (hz : z = fr + fi * Complex.I) :
    ((t : ℂ) * z * Complex.exp (2 * Real.pi * Complex.I * (p : ℝ))).re
        = t * (Real.cos (2 * Real.pi * p) * fr - Real.sin (2 * Real.pi * p) * fi) ∧
    ((t : ℂ) * z * Complex.exp (2 * Real.pi * Complex.I * (p : ℝ))).im
        = t * (Real.sin (2 * Real.pi * p) * fr + Real.cos (2 * Real.pi * p) * fi) := by
  have he : Complex.exp (2 * Real.pi * Complex.I * (p : ℝ)) = Real.cos (2 * Real.pi * p) + Real.sin (2 * Real.pi * p) * Complex.I := by
    rw [show (2 * Real.pi * Complex.I * (p : ℝ) : ℂ) = ((2 * Real.pi * p : ℝ) : ℂ) * Complex.I by push_cast; ring,
      Complex.exp_mul_I, Complex.ofReal_cos, Complex.ofReal_sin]
  rw [he, hz]
  constructor
  · simp [Complex.cos_ofReal_re, Complex.sin_ofReal_re, -Complex.ofReal_cos, -Complex.ofReal_sin]; ring
  · simp [Complex.cos_ofReal_re, Complex.sin_ofReal_re, -Complex.ofReal_cos, -Complex.ofReal_sin]; ring

theorem sf_sum_lin {α : Type} (l : List α) (e : ℝ) (c s : α → ℝ) (x y : ℝ) :
    e * ((l.map c).sum * x + (l.map s).sum * y) = (l.map fun a => e * (c a * x + s a * y)).sum := by
  induction l with
  | nil => simp
  | cons a t ih => simp only [List.map_cons, List.sum_cons]; rw [← ih]; ring

theorem complexFactor_eq (lib : CrystalLib) (ty : String) (s : ℝ) :
    Spec.complexFactor lib ty s =
      (((match lib.formfactor ty with | some c => formFactor c s | none => 0)
        + (match lib.dispersion ty with | some d => d.1 | none => 0) : ℝ) : ℂ)
      + ((match lib.dispersion ty with | some d => d.2 | none => 0 : ℝ) : ℂ) * Complex.I := by
  unfold Spec.complexFactor
  cases lib.formfactor ty <;> cases lib.dispersion ty <;>
    simp [Spec.scatteringFactor, formFactor, pow_two, add_assoc]

theorem tempFactor_nonUani {a : Atom} (ha : a.isUani = false) (cs : V3) (s : ℝ) (R : M3) (h : V3) :
    Spec.temperatureFactor cs s R h a.adp
      = match a.adp with
        | .uiso u => Real.exp (-8 * Real.pi ^ 2 * u * (s * s))
        | _ => 1 := by
  unfold Atom.isUani at ha
  cases hh : a.adp with
  | none => rfl
  | uiso u => simp [Spec.temperatureFactor, pow_two]
  | uani => simp [hh] at ha

theorem tempFactor_uani {a : Atom} (ha : a.isUani = true) (cs : V3) (s : ℝ) (R : M3) (h : V3) :
    Spec.temperatureFactor cs s R h a.adp
      = Real.exp (-dot (vecMul h (R * (match a.adp with
        | .uani u11 u22 u33 u23 u13 u12 => uijToBeta cs u11 u22 u33 u23 u13 u12
        | _ => 0) * R.tr)) h) := by
  unfold Atom.isUani at ha
  cases hh : a.adp with
  | none => simp [hh] at ha
  | uiso u => simp [hh] at ha
  | uani =>
    simp only [Spec.temperatureFactor, uijToBeta, Real.exp_eq_exp]
    simp only [dot, vecMul, M3.mulVec, M3.tr, mul_r0, mul_r1, mul_r2]
    ring

section
variable (lib : CrystalLib) (ops : List SymOp) (atoms : List Atom) (cell : List ℝ) (hkls : List V3)

theorem uaniPart_eq (hv : Spec.ValidCell cell) {i : ℕ} (hu : (atoms.getD i default).isUani = true) (h : ℕ) :
    uaniPart (sfTensors lib ops atoms cell hkls) i h
      = ((Spec.atomF lib ops cell (hkls.getD h 0) (atoms.getD i default)).re,
         (Spec.atomF lib ops cell (hkls.getD h 0) (atoms.getD i default)).im) := by
  unfold uaniPart
  simp only [sfTensors, Spec.atomF, Complex.re_ofReal_mul, Complex.im_ofReal_mul, sf_re_sum, sf_im_sum,
    sintl_eq_spec hv, tempFactor_uani hu, sf_term _ _ _ _ _ (complexFactor_eq _ _ _)]
  rw [Prod.mk.injEq]
  constructor
  · rw [← sf_range_map ops]; rfl
  · rw [← sf_range_map ops]; rfl

theorem nonUani_summand (hv : Spec.ValidCell cell) {i : ℕ} (hu : (atoms.getD i default).isUani = false) (h : ℕ) :
    let t := sfTensors lib ops atoms cell hkls
    let cosSum := ((List.range t.nSym).map fun s => Real.cos (t.phase i s h)).sum
    let sinSum := ((List.range t.nSym).map fun s => Real.sin (t.phase i s h)).sum
    t.sitePop i * t.expij i h * (cosSum * (t.ff i h + t.fp i) - sinSum * t.fpp i)
        = (Spec.atomF lib ops cell (hkls.getD h 0) (atoms.getD i default)).re ∧
    t.sitePop i * t.expij i h * (sinSum * (t.ff i h + t.fp i) + cosSum * t.fpp i)
        = (Spec.atomF lib ops cell (hkls.getD h 0) (atoms.getD i default)).im := by
  simp only [sfTensors, Spec.atomF, Complex.re_ofReal_mul, Complex.im_ofReal_mul, sf_re_sum, sf_im_sum,
    sintl_eq_spec hv, tempFactor_nonUani hu, sf_term _ _ _ _ _ (complexFactor_eq _ _ _)]
  have hc := sf_range_map ops (fun g : SymOp => Real.cos (2 * Real.pi * dot (hkls.getD h 0) (g.rot.mulVec (atoms.getD i default).pos + g.trans)))
  have hs := sf_range_map ops (fun g : SymOp => Real.sin (2 * Real.pi * dot (hkls.getD h 0) (g.rot.mulVec (atoms.getD i default).pos + g.trans)))
  rw [hc, hs]
  simp only [_root_.mul_assoc, sub_eq_add_neg, ← _root_.mul_neg]
  rw [sf_sum_lin, sf_sum_lin]
  exact ⟨rfl, rfl⟩

theorem structureFactors_eq (hv : Spec.ValidCell cell) (hne : atoms ≠ [])
    (hff : ∀ a ∈ atoms, lib.formfactor a.atomtype ≠ none) :
    structureFactors lib ops atoms cell hkls = .ok (hkls.map fun h =>
      ((Spec.structureFactor lib ops atoms cell h).re, (Spec.structureFactor lib ops atoms cell h).im)) := by
  unfold structureFactors
  rw [if_neg (by rintro ⟨a, ha, h⟩; exact hff a ha h), if_neg (by simpa using hne)]
  simp only [Except.ok.injEq]
  have key : ∀ h : ℕ, (sfTensors lib ops atoms cell hkls).uani.foldl
        (fun acc i => (acc.1 + (uaniPart (sfTensors lib ops atoms cell hkls) i h).1, acc.2 + (uaniPart (sfTensors lib ops atoms cell hkls) i h).2))
        (nonUaniPart (sfTensors lib ops atoms cell hkls) h)
      = ((Spec.structureFactor lib ops atoms cell (hkls.getD h 0)).re, (Spec.structureFactor lib ops atoms cell (hkls.getD h 0)).im) := by
    intro h
    rw [sf_foldl]
    have hua : (sfTensors lib ops atoms cell hkls).uani = (List.range atoms.length).filter fun i => (atoms.getD i default).isUani := rfl
    have hmask : ((List.range atoms.length).filter fun i => !(sfTensors lib ops atoms cell hkls).uani.contains i)
        = (List.range atoms.length).filter fun i => !(atoms.getD i default).isUani := by
      apply List.filter_congr
      intro i hi
      congr 1
      rw [hua, Bool.eq_iff_iff]
      simp only [List.contains_iff_mem, List.mem_filter]
      exact ⟨fun hh => hh.2, fun hh => ⟨hi, hh⟩⟩
    have h1 : (nonUaniPart (sfTensors lib ops atoms cell hkls) h) =
        ((((List.range atoms.length).filter fun i => !(atoms.getD i default).isUani).map fun i =>
            (Spec.atomF lib ops cell (hkls.getD h 0) (atoms.getD i default)).re).sum,
         (((List.range atoms.length).filter fun i => !(atoms.getD i default).isUani).map fun i =>
            (Spec.atomF lib ops cell (hkls.getD h 0) (atoms.getD i default)).im).sum) := by
      unfold nonUaniPart
      have : (sfTensors lib ops atoms cell hkls).nAtoms = atoms.length := rfl
      simp only [this]
      rw [hmask]
      refine Prod.ext ?_ ?_
      · refine congrArg List.sum (List.map_congr_left ?_)
        intro i hi
        simp only [List.mem_filter, Bool.not_eq_true'] at hi
        exact (nonUani_summand lib ops atoms cell hkls hv hi.2 h).1
      · refine congrArg List.sum (List.map_congr_left ?_)
        intro i hi
        simp only [List.mem_filter, Bool.not_eq_true'] at hi
        exact (nonUani_summand lib ops atoms cell hkls hv hi.2 h).2
    have h2 : ∀ i ∈ (sfTensors lib ops atoms cell hkls).uani, uaniPart (sfTensors lib ops atoms cell hkls) i h
        = ((Spec.atomF lib ops cell (hkls.getD h 0) (atoms.getD i default)).re,
           (Spec.atomF lib ops cell (hkls.getD h 0) (atoms.getD i default)).im) := by
      intro i hi
      rw [hua, List.mem_filter] at hi
      exact uaniPart_eq lib ops atoms cell hkls hv hi.2 h
    rw [h1, List.map_congr_left (fun i hi => congrArg Prod.fst (h2 i hi)), List.map_congr_left (fun i hi => congrArg Prod.snd (h2 i hi)), hua]
    unfold Spec.structureFactor
    rw [sf_re_sum, sf_im_sum]
    refine Prod.ext ?_ ?_
    · rw [← sf_range_map atoms (fun a : Atom => (Spec.atomF lib ops cell (hkls.getD h 0) a).re)]
      exact sf_filter_sum _ _ _
    · rw [← sf_range_map atoms (fun a : Atom => (Spec.atomF lib ops cell (hkls.getD h 0) a).im)]
      exact sf_filter_sum _ _ _
  rw [← sf_range_map0 hkls]
  exact List.map_congr_left fun h _ => key h

end


namespace Spec

/-- a whole number -/
def Whole (x : ℝ) : Prop := ∃ n : ℤ, x = n

/-- a lattice vector -/
def WholeV (v : V3) : Prop := Whole v.x ∧ Whole v.y ∧ Whole v.z

/-- The operations form a set that is mapped to itself, up to lattice vectors, by applying `g` after each of them. -/
def ClosedUnder (g : SymOp) (ops : List SymOp) : Prop :=
  ∃ ops' : List SymOp, ops'.Perm ops ∧
    List.Forall₂ (fun s s' : SymOp => s'.rot = g.rot * s.rot ∧ WholeV (s'.trans - (g.rot.mulVec s.trans + g.trans))) ops ops'

/-- The rotation part leaves the lengths and angles of the cell unchanged. -/
def PreservesCell (g : SymOp) (cell : List ℝ) : Prop := g.rot.tr * cellMetric cell * g.rot = cellMetric cell

end Spec

theorem Whole.add {a b : ℝ} (ha : Spec.Whole a) (hb : Spec.Whole b) : Spec.Whole (a + b) := by
  obtain ⟨m, rfl⟩ := ha; obtain ⟨n, rfl⟩ := hb; exact ⟨m + n, by push_cast; rfl⟩
theorem Whole.mul {a b : ℝ} (ha : Spec.Whole a) (hb : Spec.Whole b) : Spec.Whole (a * b) := by
  obtain ⟨m, rfl⟩ := ha; obtain ⟨n, rfl⟩ := hb; exact ⟨m * n, by push_cast; rfl⟩
theorem Whole.dot {a b : V3} (ha : Spec.WholeV a) (hb : Spec.WholeV b) : Spec.Whole (V3.dot a b) :=
  Whole.add (Whole.add (Whole.mul ha.1 hb.1) (Whole.mul ha.2.1 hb.2.1)) (Whole.mul ha.2.2 hb.2.2)

theorem exp_whole {x y : ℝ} (h : Spec.Whole (x - y)) :
    Complex.exp (2 * Real.pi * Complex.I * (x : ℝ)) = Complex.exp (2 * Real.pi * Complex.I * (y : ℝ)) := by
  obtain ⟨n, hn⟩ := h
  rw [Complex.exp_eq_exp_iff_exists_int]
  refine ⟨n, ?_⟩
  have : x = y + n := by linarith
  rw [this]; push_cast; ring

/-- **C53.** The batch of structure factors is, reflection by reflection and in the given order, the real and imaginary part of
the sum over atoms and symmetry operations of site population × temperature factor × (f + f' + i f'') × exp(2πi h·(R x + t)). -/
theorem C53_formula (lib : CrystalLib) (ops : List SymOp) (atoms : List Atom) (cell : List ℝ) (hkls : List V3)
    (hv : Spec.ValidCell cell) (hne : atoms ≠ []) (hff : ∀ a ∈ atoms, lib.formfactor a.atomtype ≠ none) :
    structureFactors lib ops atoms cell hkls = .ok (hkls.map fun h =>
      ((Spec.structureFactor lib ops atoms cell h).re, (Spec.structureFactor lib ops atoms cell h).im)) :=
  structureFactors_eq lib ops atoms cell hkls hv hne hff

/-- **C53.** An atom type missing from the form factor table is a `KeyError`, whatever else is asked for. -/
theorem C53_unknown_atom (lib : CrystalLib) (ops : List SymOp) (atoms : List Atom) (cell : List ℝ) (hkls : List V3)
    (a : Atom) (ha : a ∈ atoms) (hu : lib.formfactor a.atomtype = none) :
    structureFactors lib ops atoms cell hkls = .error .keyError := by
  unfold structureFactors
  rw [if_pos ⟨a, ha, hu⟩]

theorem sinTheta_neg (cell : List ℝ) (h : V3) : Spec.sinThetaOverLambda cell (-h) = Spec.sinThetaOverLambda cell h := by
  unfold Spec.sinThetaOverLambda
  congr 2
  simp only [M3.mulVec, V3.dot, neg_x, neg_y, neg_z]; ring

theorem tempFactor_neg (cs : V3) (s : ℝ) (R : M3) (h : V3) (a : Adp) :
    Spec.temperatureFactor cs s R (-h) a = Spec.temperatureFactor cs s R h a := by
  cases a with
  | none => rfl
  | uiso u => rfl
  | uani =>
    simp only [Spec.temperatureFactor, mulVec_neg, neg_x, neg_y, neg_z, Real.exp_eq_exp]; ring

theorem conj_sum {α : Type} (l : List α) (f : α → ℂ) : (starRingEnd ℂ) (l.map f).sum = (l.map fun a => (starRingEnd ℂ) (f a)).sum := by
  induction l with
  | nil => simp
  | cons a t ih => simp [ih]

theorem structureFactor_neg (lib : CrystalLib) (ops : List SymOp) (atoms : List Atom) (cell : List ℝ) (h : V3)
    (hd : ∀ a ∈ atoms, ∀ d, lib.dispersion a.atomtype = some d → d.2 = 0) :
    Spec.structureFactor lib ops atoms cell (-h) = (starRingEnd ℂ) (Spec.structureFactor lib ops atoms cell h) := by
  unfold Spec.structureFactor
  rw [conj_sum]
  refine congrArg List.sum (List.map_congr_left fun a ha => ?_)
  unfold Spec.atomF
  rw [map_mul, conj_sum, Complex.conj_ofReal]
  congr 2
  refine List.map_congr_left fun g _ => ?_
  rw [map_mul, map_mul, Complex.conj_ofReal, tempFactor_neg, sinTheta_neg]
  have h1 : (starRingEnd ℂ) (Spec.complexFactor lib a.atomtype (Spec.sinThetaOverLambda cell h))
      = Spec.complexFactor lib a.atomtype (Spec.sinThetaOverLambda cell h) := by
    unfold Spec.complexFactor
    have : ((lib.dispersion a.atomtype).getD (0, 0)).2 = 0 := by
      cases hh : lib.dispersion a.atomtype with
      | none => rfl
      | some d => exact hd a ha d hh
    rw [this]; simp [-Complex.ofReal_exp]
  rw [h1, ← Complex.exp_conj]
  congr 2
  have : dot (-h) (g.rot.mulVec a.pos + g.trans) = -dot h (g.rot.mulVec a.pos + g.trans) := by
    simp only [V3.dot, neg_x, neg_y, neg_z]; ring
  rw [this]
  simp [Complex.conj_ofReal]
  left
  exact (map_ofNat (starRingEnd ℂ) 2).symm

/-- **C53.** Friedel's law: without imaginary dispersion the structure factors of the inverted reflections are the complex conjugates. -/
theorem C53_friedel (lib : CrystalLib) (ops : List SymOp) (atoms : List Atom) (cell : List ℝ) (hkls : List V3)
    (hv : Spec.ValidCell cell) (hd : ∀ a ∈ atoms, ∀ d, lib.dispersion a.atomtype = some d → d.2 = 0)
    (F : List (ℝ × ℝ)) (hF : structureFactors lib ops atoms cell hkls = .ok F) :
    structureFactors lib ops atoms cell (hkls.map fun h => -h) = .ok (F.map fun z => (z.1, -z.2)) := by
  have hff : ∀ a ∈ atoms, lib.formfactor a.atomtype ≠ none := by
    intro a ha hn
    rw [C53_unknown_atom lib ops atoms cell hkls a ha hn] at hF
    exact absurd hF (by simp)
  have hne : atoms ≠ [] := by
    rintro rfl; simp [structureFactors] at hF
  rw [structureFactors_eq lib ops atoms cell _ hv hne hff] at hF ⊢
  simp only [Except.ok.injEq] at hF ⊢
  rw [← hF, List.map_map, List.map_map]
  refine List.map_congr_left fun h _ => ?_
  simp only [Function.comp_apply, structureFactor_neg lib ops atoms cell h hd, Complex.conj_re, Complex.conj_im]

/-- **C53.** Moving every atom by its own lattice vector changes no structure factor, when the reflections and the rotation parts are integer. -/
theorem C53_lattice_shift (lib : CrystalLib) (ops : List SymOp) (atoms : List Atom) (shift : Atom → V3) (cell : List ℝ) (hkls : List V3)
    (hv : Spec.ValidCell cell) (hs : ∀ a ∈ atoms, Spec.WholeV (shift a)) (hk : ∀ h ∈ hkls, Spec.WholeV h)
    (hr : ∀ g ∈ ops, Spec.WholeV g.rot.r0 ∧ Spec.WholeV g.rot.r1 ∧ Spec.WholeV g.rot.r2) :
    structureFactors lib ops (atoms.map fun a => { a with pos := a.pos + shift a }) cell hkls
      = structureFactors lib ops atoms cell hkls := by
  by_cases hff : ∃ a ∈ atoms, lib.formfactor a.atomtype = none
  · obtain ⟨a, ha, hn⟩ := hff
    rw [C53_unknown_atom lib ops atoms cell hkls a ha hn,
      C53_unknown_atom lib ops _ cell hkls { a with pos := a.pos + shift a } (List.mem_map.2 ⟨a, ha, rfl⟩) hn]
  by_cases hne : atoms = []
  · subst hne; rfl
  push Not at hff
  rw [structureFactors_eq lib ops atoms cell hkls hv hne hff, structureFactors_eq lib ops _ cell hkls hv (by simpa using hne)
    (by intro a ha; obtain ⟨b, hb, rfl⟩ := List.mem_map.1 ha; exact hff b hb)]
  simp only [Except.ok.injEq]
  refine List.map_congr_left fun h hh => ?_
  have : Spec.structureFactor lib ops (atoms.map fun a => { a with pos := a.pos + shift a }) cell h
      = Spec.structureFactor lib ops atoms cell h := by
    unfold Spec.structureFactor
    rw [List.map_map]
    refine congrArg List.sum (List.map_congr_left fun a ha => ?_)
    simp only [Function.comp_apply, Spec.atomF]
    congr 2
    refine List.map_congr_left fun g hg => ?_
    congr 1
    refine exp_whole ?_
    have : dot h (g.rot.mulVec (a.pos + shift a) + g.trans) - dot h (g.rot.mulVec a.pos + g.trans) = dot h (g.rot.mulVec (shift a)) := by
      rw [mulVec_add]; simp only [V3.dot, add_x, add_y, add_z]; ring
    rw [this]
    obtain ⟨r0, r1, r2⟩ := hr g hg
    exact Whole.dot (hk h hh) ⟨Whole.dot r0 (hs a ha), Whole.dot r1 (hs a ha), Whole.dot r2 (hs a ha)⟩
  rw [this]

/-- **C53.** The structure factors of two groups of atoms together are the sums of the structure factors of each. -/
theorem C53_additive (lib : CrystalLib) (ops : List SymOp) (atoms₁ atoms₂ : List Atom) (cell : List ℝ) (hkls : List V3)
    (hv : Spec.ValidCell cell) (F₁ F₂ : List (ℝ × ℝ))
    (h₁ : structureFactors lib ops atoms₁ cell hkls = .ok F₁) (h₂ : structureFactors lib ops atoms₂ cell hkls = .ok F₂) :
    structureFactors lib ops (atoms₁ ++ atoms₂) cell hkls = .ok (List.zipWith (fun z w => (z.1 + w.1, z.2 + w.2)) F₁ F₂) := by
  have hff : ∀ (at' : List Atom) (F : List (ℝ × ℝ)), structureFactors lib ops at' cell hkls = .ok F →
      at' ≠ [] ∧ ∀ a ∈ at', lib.formfactor a.atomtype ≠ none := by
    intro at' F hF
    refine ⟨?_, ?_⟩
    · rintro rfl; simp [structureFactors] at hF
    · intro a ha hn
      rw [C53_unknown_atom lib ops at' cell hkls a ha hn] at hF
      exact absurd hF (by simp)
  have a₁ := hff _ _ h₁
  have a₂ := hff _ _ h₂
  rw [structureFactors_eq lib ops _ cell hkls hv a₁.1 a₁.2] at h₁
  rw [structureFactors_eq lib ops _ cell hkls hv a₂.1 a₂.2] at h₂
  rw [structureFactors_eq lib ops _ cell hkls hv (by simp [a₁.1]) (by
    intro a ha
    rcases List.mem_append.1 ha with h | h
    · exact a₁.2 a h
    · exact a₂.2 a h)]
  simp only [Except.ok.injEq] at h₁ h₂ ⊢
  rw [← h₁, ← h₂, List.zipWith_map, List.zipWith_self]
  refine List.map_congr_left fun h _ => ?_
  simp [Spec.structureFactor]

/-- **C53.** The order in which the atoms are listed does not matter. -/
theorem C53_order (lib : CrystalLib) (ops : List SymOp) (atoms₁ atoms₂ : List Atom) (cell : List ℝ) (hkls : List V3)
    (hv : Spec.ValidCell cell) (hp : atoms₁.Perm atoms₂) :
    structureFactors lib ops atoms₁ cell hkls = structureFactors lib ops atoms₂ cell hkls := by
  by_cases hff : ∃ a ∈ atoms₁, lib.formfactor a.atomtype = none
  · obtain ⟨a, ha, hn⟩ := hff
    rw [C53_unknown_atom lib ops _ cell hkls a ha hn, C53_unknown_atom lib ops _ cell hkls a (hp.subset ha) hn]
  by_cases hne : atoms₁ = []
  · subst hne; rw [List.nil_perm.1 hp]
  push Not at hff
  rw [structureFactors_eq lib ops _ cell hkls hv hne hff, structureFactors_eq lib ops _ cell hkls hv
    (by rintro rfl; exact hne (List.perm_nil.1 hp)) (fun a ha => hff a (hp.symm.subset ha))]
  simp only [Except.ok.injEq]
  refine List.map_congr_left fun h _ => ?_
  have : Spec.structureFactor lib ops atoms₁ cell h = Spec.structureFactor lib ops atoms₂ cell h :=
    (hp.map _).sum_eq
  rw [this]

/-! ### C69: symmetry-equivalent reflections -/

theorem sinTheta_symm {g : SymOp} {cell : List ℝ} (hv : Spec.ValidCell cell) (hg : Spec.PreservesCell g cell) (h : V3) :
    Spec.sinThetaOverLambda cell (vecMul h g.rot) = Spec.sinThetaOverLambda cell h := by
  unfold Spec.sinThetaOverLambda
  congr 2
  set G := Spec.cellMetric cell with hG
  have hd : G.det ≠ 0 := ne_of_gt hv.2.2.2
  have hR : (G.inv * g.rot.tr * G) * g.rot = 1 := by
    rw [mul_assoc', mul_assoc', ← mul_assoc' g.rot.tr]
    unfold Spec.PreservesCell at hg
    rw [← hG] at hg
    rw [hg, inv_mul hd]
  have hRd : g.rot.det ≠ 0 := by
    intro h0
    have := congrArg M3.det hR
    rw [det_mul, h0, det_one] at this
    simp at this
  have hinv := inv_unique hRd hR
  have h2 : g.rot * (G.inv * g.rot.tr * G) = 1 := by rw [← hinv, mul_inv hRd]
  have h3 : g.rot * G.inv * g.rot.tr = G.inv := by
    have : (g.rot * (G.inv * g.rot.tr * G)) * G.inv = 1 * G.inv := by rw [h2]
    rw [one_mul'] at this
    calc g.rot * G.inv * g.rot.tr = g.rot * (G.inv * g.rot.tr) * (G * G.inv) := by rw [mul_inv hd, mul_one', mul_assoc']
      _ = g.rot * (G.inv * g.rot.tr * G) * G.inv := by rw [← mul_assoc', mul_assoc' g.rot]
      _ = G.inv := this
  have h4 : g.rot.tr.mulVec h = vecMul h g.rot := by
    ext <;> simp only [M3.tr, M3.mulVec, vecMul, V3.dot] <;> ring
  rw [vecMul_dot, ← h4, ← mulVec_mul, ← mulVec_mul, mul_assoc' , ← mul_assoc', h3]

theorem structureFactor_symm (lib : CrystalLib) (ops : List SymOp) (atoms : List Atom) (cell : List ℝ) (g : SymOp) (h : V3)
    (hv : Spec.ValidCell cell) (hg : Spec.PreservesCell g cell) (hc : Spec.ClosedUnder g ops) (hh : Spec.WholeV h) :
    Complex.exp (2 * Real.pi * Complex.I * (dot h g.trans : ℝ)) * Spec.structureFactor lib ops atoms cell (vecMul h g.rot)
      = Spec.structureFactor lib ops atoms cell h := by
  unfold Spec.structureFactor
  rw [← List.sum_map_mul_left]
  refine congrArg List.sum (List.map_congr_left fun a ha => ?_)
  obtain ⟨ops', hperm, hfa⟩ := hc
  unfold Spec.atomF
  rw [mul_left_comm]
  congr 1
  have hp := (hperm.map fun g : SymOp =>
    (Spec.temperatureFactor (lib.cellStar cell) (Spec.sinThetaOverLambda cell h) g.rot h a.adp : ℂ)
      * Spec.complexFactor lib a.atomtype (Spec.sinThetaOverLambda cell h)
      * Complex.exp (2 * Real.pi * Complex.I * (dot h (g.rot.mulVec a.pos + g.trans) : ℝ))).sum_eq
  rw [← List.sum_map_mul_left, ← hp, sinTheta_symm hv hg]
  clear hp
  refine congrArg List.sum ?_
  clear hperm
  induction hfa with
  | nil => rfl
  | @cons s s' l l' hs _ ih =>
    rw [List.map_cons, List.map_cons, ih]
    congr 1
    obtain ⟨hr, ht⟩ := hs
    have h1 : Spec.temperatureFactor (lib.cellStar cell) (Spec.sinThetaOverLambda cell h) s.rot (vecMul h g.rot) a.adp
        = Spec.temperatureFactor (lib.cellStar cell) (Spec.sinThetaOverLambda cell h) s'.rot h a.adp := by
      have : s.rot.tr.mulVec (vecMul h g.rot) = s'.rot.tr.mulVec h := by
        rw [hr]
        ext <;> simp only [M3.tr, M3.mulVec, vecMul, V3.dot, mul_r0, mul_r1, mul_r2] <;> ring
      cases a.adp <;> simp only [Spec.temperatureFactor, this]
    rw [h1]
    rw [mul_left_comm]
    congr 1
    rw [← Complex.exp_add, ← _root_.mul_add, ← Complex.ofReal_add]
    refine exp_whole ?_
    have : dot h g.trans + dot (vecMul h g.rot) (s.rot.mulVec a.pos + s.trans) - dot h (s'.rot.mulVec a.pos + s'.trans)
        = -(dot h (s'.trans - (g.rot.mulVec s.trans + g.trans))) := by
      rw [hr, vecMul_dot, mulVec_add, mulVec_mul]
      simp only [V3.dot, add_x, add_y, add_z, sub_x, sub_y, sub_z]; ring
    rw [this]
    obtain ⟨n, hn⟩ := Whole.dot hh ht
    exact ⟨-n, by rw [hn]; push_cast; rfl⟩

/-- **C69.** Symmetry-equivalent reflections `h` and `h R` have the same squared structure factor, the quantity that enters the
intensity. -/
theorem C69_equivalent (lib : CrystalLib) (ops : List SymOp) (atoms : List Atom) (cell : List ℝ) (g : SymOp) (h : V3)
    (hv : Spec.ValidCell cell) (hg : Spec.PreservesCell g cell) (hc : Spec.ClosedUnder g ops) (hh : Spec.WholeV h)
    (F₁ F₂ : ℝ × ℝ) (hF : structureFactors lib ops atoms cell [h, vecMul h g.rot] = .ok [F₁, F₂]) :
    F₁.1 ^ 2 + F₁.2 ^ 2 = F₂.1 ^ 2 + F₂.2 ^ 2 := by
  have hff : ∀ a ∈ atoms, lib.formfactor a.atomtype ≠ none := by
    intro a ha hn
    rw [C53_unknown_atom lib ops atoms cell _ a ha hn] at hF
    exact absurd hF (by simp)
  have hne : atoms ≠ [] := by
    rintro rfl; simp [structureFactors] at hF
  rw [structureFactors_eq lib ops atoms cell _ hv hne hff] at hF
  simp only [List.map_cons, List.map_nil, Except.ok.injEq, List.cons.injEq, and_true] at hF
  obtain ⟨h1, h2⟩ := hF
  have key := structureFactor_symm lib ops atoms cell g h hv hg hc hh
  have hn := congrArg (fun z : ℂ => Complex.normSq z) key
  simp only [Complex.normSq_mul] at hn
  have he : Complex.normSq (Complex.exp (2 * Real.pi * Complex.I * (dot h g.trans : ℝ))) = 1 := by
    rw [Complex.normSq_eq_norm_sq, show (2 * Real.pi * Complex.I * (dot h g.trans : ℝ) : ℂ) = ((2 * Real.pi * dot h g.trans : ℝ) : ℂ) * Complex.I by push_cast; ring,
      Complex.norm_exp_ofReal_mul_I]; norm_num
  rw [he, _root_.one_mul] at hn
  rw [← h1, ← h2]
  simp only [Complex.normSq_apply] at hn
  nlinarith [hn]

/-- **C69.** Systematic absences: a reflection that a symmetry operation maps to itself while its translation part shifts the
phase by a fraction of a turn has structure factor zero. -/
theorem C69_absence (lib : CrystalLib) (ops : List SymOp) (atoms : List Atom) (cell : List ℝ) (g : SymOp) (h : V3)
    (hv : Spec.ValidCell cell) (hg : Spec.PreservesCell g cell) (hc : Spec.ClosedUnder g ops) (hh : Spec.WholeV h)
    (hfix : vecMul h g.rot = h) (hfrac : ¬ Spec.Whole (dot h g.trans))
    (F : ℝ × ℝ) (hF : structureFactors lib ops atoms cell [h] = .ok [F]) : F = (0, 0) := by
  have hff : ∀ a ∈ atoms, lib.formfactor a.atomtype ≠ none := by
    intro a ha hn
    rw [C53_unknown_atom lib ops atoms cell _ a ha hn] at hF
    exact absurd hF (by simp)
  have hne : atoms ≠ [] := by
    rintro rfl; simp [structureFactors] at hF
  rw [structureFactors_eq lib ops atoms cell _ hv hne hff] at hF
  simp only [List.map_cons, List.map_nil, Except.ok.injEq, List.cons.injEq, and_true] at hF
  have key := structureFactor_symm lib ops atoms cell g h hv hg hc hh
  rw [hfix] at key
  have hz : Spec.structureFactor lib ops atoms cell h = 0 := by
    by_contra hnz
    have h1 : Complex.exp (2 * Real.pi * Complex.I * (dot h g.trans : ℝ)) = 1 := by
      have : (Complex.exp (2 * Real.pi * Complex.I * (dot h g.trans : ℝ)) - 1) * Spec.structureFactor lib ops atoms cell h = 0 := by
        rw [sub_mul, key]; ring
      rcases mul_eq_zero.1 this with h | h
      · exact sub_eq_zero.1 h
      · exact absurd h hnz
    rw [Complex.exp_eq_one_iff] at h1
    obtain ⟨n, hn⟩ := h1
    apply hfrac
    refine ⟨n, ?_⟩
    have hpi : (2 * Real.pi * Complex.I : ℂ) ≠ 0 := Complex.two_pi_I_ne_zero
    have : ((dot h g.trans : ℝ) : ℂ) = ((n : ℝ) : ℂ) := by
      apply mul_left_cancel₀ hpi
      rw [hn]; push_cast; ring
    exact_mod_cast this
  rw [hz] at hF
  simp at hF
  exact hF.symm

/-! ### The hypotheses are met: an orthorhombic cell with a two-fold screw axis -/

/-- the operations of P2₁ with unique axis b: identity and (-x, y + 1/2, -z) -/
noncomputable def screwOps : List SymOp := [⟨1, 0⟩, ⟨⟨⟨-1, 0, 0⟩, ⟨0, 1, 0⟩, ⟨0, 0, -1⟩⟩, ⟨0, 1 / 2, 0⟩⟩]

theorem cos90 : Real.cos (90 * Real.pi / 180) = 0 := by
  rw [show (90 * Real.pi / 180 : ℝ) = Real.pi / 2 by ring]; exact Real.cos_pi_div_two

theorem orthoCell_valid : Spec.ValidCell [4, 5, 6, 90, 90, 90] := by
  simp only [Spec.ValidCell, Spec.cellMetric, M3.det, List.getD_cons_zero, List.getD_cons_succ, cos90]
  norm_num

theorem screwOps_closed : Spec.ClosedUnder ⟨⟨⟨-1, 0, 0⟩, ⟨0, 1, 0⟩, ⟨0, 0, -1⟩⟩, ⟨0, 1 / 2, 0⟩⟩ screwOps := by
  refine ⟨[⟨⟨⟨-1, 0, 0⟩, ⟨0, 1, 0⟩, ⟨0, 0, -1⟩⟩, ⟨0, 1 / 2, 0⟩⟩, ⟨1, 0⟩], List.Perm.swap _ _ _, ?_⟩
  refine .cons ⟨?_, ?_⟩ (.cons ⟨?_, ?_⟩ .nil)
  · rw [mul_one']
  · refine ⟨⟨0, ?_⟩, ⟨0, ?_⟩, ⟨0, ?_⟩⟩ <;> simp [M3.mulVec, V3.dot]
  · ext <;> simp [vecMul, mul_r0, mul_r1, mul_r2]
  · refine ⟨⟨0, ?_⟩, ⟨-1, ?_⟩, ⟨0, ?_⟩⟩ <;> simp [M3.mulVec, V3.dot] <;> norm_num

theorem screw_preserves : Spec.PreservesCell ⟨⟨⟨-1, 0, 0⟩, ⟨0, 1, 0⟩, ⟨0, 0, -1⟩⟩, ⟨0, 1 / 2, 0⟩⟩ [4, 5, 6, 90, 90, 90] := by
  simp only [Spec.PreservesCell, Spec.cellMetric, List.getD_cons_zero, List.getD_cons_succ, cos90]
  ext <;> simp [vecMul, mul_r0, mul_r1, mul_r2, M3.tr]

/-- one silicon-like atom type with real dispersion -/
noncomputable def oneTypeLib : CrystalLib where
  formfactor := fun s => if s = "Si" then some ⟨⟨1, 2, 3, 4⟩, ⟨5, 6, 7, 8⟩, 1⟩ else none
  dispersion := fun s => if s = "Si" then some (1 / 10, 0) else none
  cellStar := fun _ => ⟨1 / 4, 1 / 5, 1 / 6⟩

/-- C53_formula applies to a crystal with an isotropic and an anisotropic atom. -/
example : structureFactors oneTypeLib screwOps
    [⟨"Si", ⟨0, 0, 0⟩, 1, 2, .uiso 1⟩, ⟨"Si", ⟨1 / 3, 0, 0⟩, 1, 2, .uani 1 1 1 0 0 0⟩] [4, 5, 6, 90, 90, 90] [⟨1, 0, 0⟩, ⟨0, 2, 1⟩]
    = .ok ([⟨1, 0, 0⟩, ⟨0, 2, 1⟩].map fun h =>
      ((Spec.structureFactor oneTypeLib screwOps
        [⟨"Si", ⟨0, 0, 0⟩, 1, 2, .uiso 1⟩, ⟨"Si", ⟨1 / 3, 0, 0⟩, 1, 2, .uani 1 1 1 0 0 0⟩] [4, 5, 6, 90, 90, 90] h).re,
       (Spec.structureFactor oneTypeLib screwOps
        [⟨"Si", ⟨0, 0, 0⟩, 1, 2, .uiso 1⟩, ⟨"Si", ⟨1 / 3, 0, 0⟩, 1, 2, .uani 1 1 1 0 0 0⟩] [4, 5, 6, 90, 90, 90] h).im)) :=
  C53_formula _ _ _ _ _ orthoCell_valid (by simp) (by simp [oneTypeLib])

/-- The specification is not constantly zero: one atom at the origin without symmetry or displacement scatters with `f + f'`. -/
example : Spec.structureFactor oneTypeLib [⟨1, 0⟩] [⟨"Si", 0, 1, 1, .none⟩] [4, 5, 6, 90, 90, 90] 0 = ((111 / 10 : ℝ) : ℂ) := by
  simp [Spec.structureFactor, Spec.atomF, Spec.temperatureFactor, Spec.complexFactor, oneTypeLib, Spec.scatteringFactor,
    Spec.sinThetaOverLambda, V3.dot]
  norm_num

/-- The reflection (0 1 0) is absent for every choice of atoms in P2₁, for instance these. -/
example (F : ℝ × ℝ) (hF : structureFactors oneTypeLib screwOps
    [⟨"Si", ⟨0, 0, 0⟩, 1, 2, .uiso 1⟩, ⟨"Si", ⟨1 / 3, 0, 0⟩, 1, 2, .uani 1 1 1 0 0 0⟩] [4, 5, 6, 90, 90, 90] [⟨0, 1, 0⟩] = .ok [F]) :
    F = (0, 0) :=
  C69_absence _ _ _ _ _ _ orthoCell_valid screw_preserves screwOps_closed ⟨⟨0, by simp⟩, ⟨1, by simp⟩, ⟨0, by simp⟩⟩
    (by ext <;> simp [vecMul]) (by
      rintro ⟨n, hn⟩
      simp [V3.dot] at hn
      have : (2 * n : ℝ) = 1 := by rw [← hn]; norm_num
      have h2 : (2 * n : ℤ) = 1 := by exact_mod_cast this
      omega) F hF

/-- (1 2 3) and (-1 2 -3) are equivalent in P2₁. -/
example (F₁ F₂ : ℝ × ℝ) (hF : structureFactors oneTypeLib screwOps
    [⟨"Si", ⟨0, 1 / 7, 0⟩, 1, 2, .uiso 1⟩, ⟨"Si", ⟨1 / 3, 0, 0⟩, 1, 2, .uani 1 1 1 0 0 0⟩] [4, 5, 6, 90, 90, 90]
      [⟨1, 2, 3⟩, vecMul ⟨1, 2, 3⟩ ⟨⟨-1, 0, 0⟩, ⟨0, 1, 0⟩, ⟨0, 0, -1⟩⟩] = .ok [F₁, F₂]) :
    F₁.1 ^ 2 + F₁.2 ^ 2 = F₂.1 ^ 2 + F₂.2 ^ 2 :=
  C69_equivalent _ _ _ _ _ _ orthoCell_valid screw_preserves screwOps_closed ⟨⟨1, by simp⟩, ⟨2, by simp⟩, ⟨3, by simp⟩⟩ F₁ F₂ hF

end XRD
