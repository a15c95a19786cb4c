import Verif.Lemmas.Peaks
import Verif.Lemmas.Mesh
import Verif.Lemmas.Motion
import Verif.Lemmas.Detector
import Verif.Lemmas.Polycrystal

/-! Behaviour of the diffraction computation when the whole experiment is moved rigidly. -/

namespace XRD
open V3 M3 Fl
open scoped Classical

section scalars
variable {Q : M3} (hQ : IsRot Q)
include hQ

theorem turn_dot (u v : V3) : (Q.mulVec u).dot (Q.mulVec v) = u.dot v := M3.IsRot.dot_mulVec hQ.1 u v
theorem turn_norm (u : V3) : (Q.mulVec u).norm = u.norm := IsRot.norm_mulVec hQ u
theorem turn_nsq (u : V3) : (Q.mulVec u).nsq = u.nsq := M3.IsRot.nsq_mulVec hQ.1 u
theorem turn_inj {u v : V3} (h : Q.mulVec u = Q.mulVec v) : u = v := by
  have := congrArg Q.tr.mulVec h
  rwa [← mulVec_mul, ← mulVec_mul, hQ.1, one_mulVec, one_mulVec] at this
theorem turn_eq_zero {u : V3} : Q.mulVec u = 0 ↔ u = 0 :=
  ⟨fun h => turn_inj hQ (by rw [h, mulVec_zero]), fun h => by rw [h, mulVec_zero]⟩

theorem turn_rotMat (a v : V3) (θ : ℝ) : (rotMat (Q.mulVec a) θ).mulVec (Q.mulVec v) = Q.mulVec ((rotMat a θ).mulVec v) := by
  rw [rotMat_mulVec, rotMat_mulVec, IsRot.cross_mulVec hQ, turn_dot hQ, turn_nsq hQ]
  simp only [mulVec_add, mulVec_sub, mulVec_smul]

theorem turn_rho0 (k a G : V3) : (rho0Factor (Q.mulVec k) (Q.mulVec a)).dot (Q.mulVec G) = (rho0Factor k a).dot G := by
  unfold rho0Factor
  rw [vecMul_dot, vecMul_dot, crossMat2_mulVec, crossMat2_mulVec, turn_dot hQ, turn_nsq hQ]
  rw [← mulVec_neg, ← mulVec_smul, ← mulVec_smul, ← mulVec_sub, turn_dot hQ]
theorem turn_rho1 (k a G : V3) : (rho1Factor (Q.mulVec k) (Q.mulVec a)).dot (Q.mulVec G) = (rho1Factor k a).dot G := by
  unfold rho1Factor
  rw [vecMul_dot, vecMul_dot, crossMat_mulVec, crossMat_mulVec, IsRot.cross_mulVec hQ, turn_dot hQ]
theorem turn_rho2 (k a G : V3) : (rho2Factor (Q.mulVec k) (Q.mulVec a)).dot (Q.mulVec G) = (rho2Factor k a).dot G := by
  unfold rho2Factor
  have e : ∀ a v : V3, (1 + crossMat2 a : M3).mulVec v = v + (crossMat2 a).mulVec v := by
    intro a v; ext <;> simp [mulVec, V3.dot] <;> ring
  rw [vecMul_dot, vecMul_dot, e, e, crossMat2_mulVec, crossMat2_mulVec, turn_dot hQ, turn_nsq hQ]
  rw [← mulVec_smul, ← mulVec_smul, ← mulVec_sub, ← mulVec_add, turn_dot hQ]

theorem turn_laueRoots (k a G : V3) :
    laueRoots (rho0Factor (Q.mulVec k) (Q.mulVec a)) (rho1Factor (Q.mulVec k) (Q.mulVec a)) (rho2Factor (Q.mulVec k) (Q.mulVec a)) (Q.mulVec G)
      = laueRoots (rho0Factor k a) (rho1Factor k a) (rho2Factor k a) G := by
  unfold laueRoots
  rw [turn_rho0 hQ, turn_rho1 hQ, turn_rho2 hQ, turn_nsq hQ]

/-- a solution with its vector turned -/
def turnSol (Q : M3) (s : LaueSol) : LaueSol := ⟨s.grain, s.plane, s.time, Q.mulVec s.G⟩

theorem turn_laueBranch (pick : Fl × Fl → Fl) (G0 : List (List V3)) (k a : V3) (dω : ℝ) :
    laueBranch pick (G0.map (List.map Q.mulVec)) (rho0Factor (Q.mulVec k) (Q.mulVec a)) (rho1Factor (Q.mulVec k) (Q.mulVec a))
      (rho2Factor (Q.mulVec k) (Q.mulVec a)) dω
      = (laueBranch pick G0 (rho0Factor k a) (rho1Factor k a) (rho2Factor k a) dω).map (turnSol Q) := by
  unfold laueBranch
  rw [List.length_map, List.map_flatMap]
  congr 1
  funext g
  have e : (G0.map (List.map Q.mulVec)).getD g [] = (G0.getD g []).map Q.mulVec := by
    rw [List.getD_eq_getElem?_getD, List.getD_eq_getElem?_getD, List.getElem?_map]
    cases G0[g]? <;> rfl
  rw [e, List.length_map, List.map_filterMap]
  congr 1
  funext p
  have e2 : ((G0.getD g []).map Q.mulVec).getD p 0 = Q.mulVec ((G0.getD g []).getD p 0) := by
    generalize G0.getD g [] = l
    rw [List.getD_eq_getElem?_getD, List.getD_eq_getElem?_getD, List.getElem?_map]
    cases l[p]? with
    | none => simp [mulVec_zero]
    | some v => rfl
  dsimp only
  rw [e2, turn_laueRoots hQ, Option.map_map]
  rfl

theorem turn_laueSolutions (G0 : List (List V3)) (k a : V3) (dω : ℝ) :
    laueSolutions (G0.map (List.map Q.mulVec)) (rho0Factor (Q.mulVec k) (Q.mulVec a)) (rho1Factor (Q.mulVec k) (Q.mulVec a))
      (rho2Factor (Q.mulVec k) (Q.mulVec a)) dω
      = (laueSolutions G0 (rho0Factor k a) (rho1Factor k a) (rho2Factor k a) dω).map (turnSol Q) := by
  unfold laueSolutions
  rw [turn_laueBranch hQ, turn_laueBranch hQ, List.map_append]

omit hQ in
/-- scalar product of a normalised vector with another one, as the code computes it -/
theorem unit_dot (g h : V3) :
    (fin g.x / fin g.norm) * fin h.x + (fin g.y / fin g.norm) * fin h.y + (fin g.z / fin g.norm) * fin h.z
      = if g = 0 then nan else fin (g.dot h / g.norm) := by
  by_cases hg : g = 0
  · subst hg
    rw [if_pos rfl]
    simp [div_fin, V3.norm, nsq, V3.dot, infSign]
  · rw [if_neg hg]
    have hn : g.norm ≠ 0 := fun h => hg (V3.norm_eq_zero.mp h)
    rw [div_fin_ne hn, div_fin_ne hn, div_fin_ne hn]
    simp only [mul_fin, add_fin]
    congr 1
    simp only [V3.dot]
    field_simp

theorem turn_unit_dot (g h : V3) :
    (fin (Q.mulVec g).x / fin (Q.mulVec g).norm) * fin (Q.mulVec h).x + (fin (Q.mulVec g).y / fin (Q.mulVec g).norm) * fin (Q.mulVec h).y
        + (fin (Q.mulVec g).z / fin (Q.mulVec g).norm) * fin (Q.mulVec h).z
      = (fin g.x / fin g.norm) * fin h.x + (fin g.y / fin g.norm) * fin h.y + (fin g.z / fin g.norm) * fin h.z := by
  rw [unit_dot, unit_dot, turn_dot hQ, turn_norm hQ]
  simp only [turn_eq_zero hQ]

theorem turn_polarization (K p : V3) : polarization (Q.mulVec K) (Q.mulVec p) = polarization K p := by
  unfold polarization
  dsimp only
  rw [turn_unit_dot hQ]

omit hQ in
theorem twoTheta_eq {k : V3} (hk : k ≠ 0) (K : V3) :
    twoTheta k K = Fl.arccos (if K = 0 then nan else fin (k.dot K / (k.norm * K.norm))) := by
  unfold twoTheta
  dsimp only
  congr 1
  have hn : k.norm ≠ 0 := fun h => hk (V3.norm_eq_zero.mp h)
  by_cases hK : K = 0
  · subst hK
    simp [div_fin, V3.norm, nsq, V3.dot, infSign]
  · have hN : K.norm ≠ 0 := fun h => hK (V3.norm_eq_zero.mp h)
    rw [if_neg hK]
    rw [div_fin_ne hn, div_fin_ne hn, div_fin_ne hn, div_fin_ne hN, div_fin_ne hN, div_fin_ne hN]
    simp only [mul_fin, add_fin]
    congr 1
    simp only [V3.dot]
    field_simp

theorem turn_twoTheta {k : V3} (hk : k ≠ 0) (K : V3) : twoTheta (Q.mulVec k) (Q.mulVec K) = twoTheta k K := by
  rw [twoTheta_eq hk, twoTheta_eq (fun h => hk ((turn_eq_zero hQ).mp h)), turn_dot hQ, turn_norm hQ, turn_norm hQ]
  simp only [turn_eq_zero hQ]

omit hQ in
/-- the Lorentz factor in terms of scalar products -/
theorem lorentz_eq {k : V3} (hk : k ≠ 0) (K a : V3) :
    lorentz k K a =
      (let kkp : Fl := fin (k.dot K / k.norm ^ 2)
       let theta : Fl := Fl.arccos kkp / fin 2
       let o : V3 := K - (k.dot K / k.norm ^ 2) • k
       let eta : Fl := Fl.arccos (fin (a.dot o) / fin o.norm)
       if Fl.Lt (Fl.abs (rad2deg eta)) (fin (1 / 2)) ∨ Fl.Lt (fin (180 - 1 / 2)) (Fl.abs (rad2deg eta)) ∨ Fl.Lt (rad2deg theta) (fin (1 / 2))
       then pinf else fin 1 / (Fl.sin (fin 2 * theta) * Fl.abs (Fl.sin eta))) := by
  have hn : k.norm ^ 2 ≠ 0 := pow_ne_zero _ fun h => hk (V3.norm_eq_zero.mp h)
  have e1 : (fin (k.dot K) / fin (k.norm ^ 2) : Fl) = fin (k.dot K / k.norm ^ 2) := div_fin_ne hn
  unfold lorentz
  dsimp only
  rw [e1]
  set c := k.dot K / k.norm ^ 2
  simp only [mul_fin, sub_fin, add_fin]
  have e2 : Fl.sqrt (fin ((K.x - k.x * c) * (K.x - k.x * c) + (K.y - k.y * c) * (K.y - k.y * c) + (K.z - k.z * c) * (K.z - k.z * c)))
      = fin (K - c • k).norm := by
    rw [Fl.sqrt_fin (by nlinarith [sq_nonneg (K.x - k.x * c), sq_nonneg (K.y - k.y * c), sq_nonneg (K.z - k.z * c)])]
    congr 1
    simp only [V3.norm, nsq, V3.dot, V3.sub_x, V3.sub_y, V3.sub_z, V3.smul_x, V3.smul_y, V3.smul_z]
    congr 1; ring
  have e3 : a.x * (K.x - k.x * c) + a.y * (K.y - k.y * c) + a.z * (K.z - k.z * c) = a.dot (K - c • k) := by
    simp only [V3.dot, V3.sub_x, V3.sub_y, V3.sub_z, V3.smul_x, V3.smul_y, V3.smul_z]; ring
  rw [e2, e3]

theorem turn_lorentz {k : V3} (hk : k ≠ 0) (K a : V3) : lorentz (Q.mulVec k) (Q.mulVec K) (Q.mulVec a) = lorentz k K a := by
  rw [lorentz_eq hk, lorentz_eq (fun h => hk ((turn_eq_zero hQ).mp h))]
  simp only [turn_dot hQ, turn_norm hQ, ← mulVec_smul, ← mulVec_sub]

omit hQ in
theorem turn_getG (U B : M3) (h : V3) : getG (Q * U) B h = Q.mulVec (getG U B h) := by
  unfold getG; rw [mul_assoc', mulVec_mul]

end scalars

/-- the motion of the moved experiment -/
noncomputable def Motion.turned (m : Motion) (Q : M3) (f : V3 → V3) : Motion :=
  ⟨Q.mulVec m.axis, m.angle, Q.mulVec m.translation, f m.origin⟩

theorem turn_rotate1 {Q : M3} {f : V3 → V3} (hQ : IsRot Q) (m : Motion) (v : V3) (t : ℝ) :
    (m.turned Q f).rotate1 (Q.mulVec v) t = Q.mulVec (m.rotate1 v t) := turn_rotMat hQ _ _ _

theorem turn_call1 {Q : M3} {f : V3 → V3} (h : AffRot f Q) (m : Motion) (p : V3) (t : ℝ) :
    (m.turned Q f).call1 (f p) t = f (m.call1 p t) := by
  unfold Motion.call1 Motion.turned
  dsimp only
  rw [h.sub, turn_rotMat h.1]
  obtain ⟨-, s, hs⟩ := h
  rw [hs, hs]
  simp only [mulVec_add, mulVec_smul]
  ext <;> simp <;> ring

/-- a peak row (at least 19 columns) with its vectors turned and its source point moved -/
noncomputable def turnRow (Q : M3) (f : V3 → V3) (row : List Fl) : List Fl :=
  match vecAt row 7, vecAt row 10, vecAt row 13, vecAt row 16 with
  | some a, some b, some c, some s =>
    row.take 7 ++ [fin (Q.mulVec a).x, fin (Q.mulVec a).y, fin (Q.mulVec a).z, fin (Q.mulVec b).x, fin (Q.mulVec b).y, fin (Q.mulVec b).z,
      fin (Q.mulVec c).x, fin (Q.mulVec c).y, fin (Q.mulVec c).z, fin (f s).x, fin (f s).y, fin (f s).z] ++ row.drop 19
  | _, _, _, _ => row

/-- a ten-column row turned -/
noncomputable def turn10 (Q : M3) (r : List ℝ) : List ℝ :=
  match r with
  | [a, b, c, d, e, g, t, x, y, z] =>
    let v := Q.mulVec ⟨x, y, z⟩
    [a, b, c, d, e, g, t, v.x, v.y, v.z]
  | r => r

/-- The crystal of the moved experiment. -/
structure Crystal.Turned (c c' : Crystal) (Q : M3) (f : V3 → V3) : Prop where
  kind : c'.mapKind = c.mapKind
  map : c'.phaseMap = c.phaseMap
  phases : c'.phases = c.phases
  eB : c'.eB = c.eB
  volumes : c'.volumes = c.volumes
  orientation : c'.orientation = c.orientation.map (Q * ·)
  spheres : c'.sphereCentroids = c.sphereCentroids.map f
  inside : ∀ i < c.phases.length, ∀ e ∈ grainIndices c.phaseMap i, e < c.sphereCentroids.length

/-- The beam of the moved experiment. -/
structure Beam.Turned (b b' : Beam) (Q : M3) (f : V3 → V3) : Prop where
  wave : b'.waveVector = Q.mulVec b.waveVector
  wavelength : b'.wavelength = b.wavelength
  pol : b'.polarization = Q.mulVec b.polarization
  contains : ∀ p, b'.contains (f p) ↔ b.contains p

section tables
variable {Q : M3} {f : V3 → V3} {c c' : Crystal} {b b' : Beam} {m : Motion}

theorem turn_phaseRows (h : AffRot f Q) (hc : c.Turned c' Q f) (hb : b.Turned b' Q f) (i : ℕ) (ph : Phase) :
    phaseRows c' b' (m.turned Q f) i ph = (phaseRows c b m i ph).map (turn10 Q) := by
  have hQ := h.1
  unfold phaseRows
  dsimp only
  rw [hc.map, hb.wave, hc.eB, hc.orientation]
  have e : ((grainIndices c.phaseMap i).map fun e => (activePlanes ph).1.map fun p =>
        getG ((c.orientation.map (Q * ·)).getD e 0) (c.eB.getD e 0) p.toV)
      = ((grainIndices c.phaseMap i).map fun e => (activePlanes ph).1.map fun p =>
        getG (c.orientation.getD e 0) (c.eB.getD e 0) p.toV).map (List.map Q.mulVec) := by
    rw [List.map_map]
    congr 1
    funext e
    simp only [Function.comp, List.map_map]
    congr 1
    funext p
    simp only [Function.comp]
    rw [← turn_getG]
    congr 1
    rw [List.getD_eq_getElem?_getD, List.getD_eq_getElem?_getD, List.getElem?_map]
    cases c.orientation[e]? with
    | none =>
      show (0 : M3) = Q * 0
      ext <;> simp [vecMul]
    | some U => rfl
  rw [e]
  show (laueSolutions _ (rho0Factor (Q.mulVec b.waveVector) (Q.mulVec m.axis)) (rho1Factor (Q.mulVec b.waveVector) (Q.mulVec m.axis))
    (rho2Factor (Q.mulVec b.waveVector) (Q.mulVec m.axis)) m.angle).map _ = _
  rw [turn_laueSolutions hQ, List.map_map, List.map_map]
  rfl

theorem turn_allPhaseRows (h : AffRot f Q) (hc : c.Turned c' Q f) (hb : b.Turned b' Q f) :
    allPhaseRows c' b' (m.turned Q f) = (allPhaseRows c b m).map (turn10 Q) := by
  unfold allPhaseRows
  rw [hc.phases, List.map_flatMap]
  congr 1
  funext i
  cases c.phases[i]? with
  | none => rfl
  | some ph => exact turn_phaseRows h hc hb i ph

/-- every ten-column row is a list of ten numbers whose first one is an element with a bounding sphere -/
theorem allPhaseRows_shape (hc : ∀ i < c.phases.length, ∀ e ∈ grainIndices c.phaseMap i, e < c.sphereCentroids.length)
    {r : List ℝ} (hr : r ∈ allPhaseRows c b m) :
    ∃ (e : ℕ) (p1 p2 p3 p4 p5 t x y z : ℝ), r = [(e : ℝ), p1, p2, p3, p4, p5, t, x, y, z] ∧ e < c.sphereCentroids.length := by
  unfold allPhaseRows at hr
  rw [List.mem_flatMap] at hr
  obtain ⟨i, hi, hr⟩ := hr
  rw [List.mem_range] at hi
  rw [List.getElem?_eq_getElem hi] at hr
  simp only at hr
  unfold phaseRows at hr
  dsimp only at hr
  rw [List.mem_map] at hr
  obtain ⟨s, hs, rfl⟩ := hr
  refine ⟨_, _, _, _, _, _, _, _, _, _, rfl, ?_⟩
  obtain ⟨row, h1, -, -⟩ := mem_laueSolutions.mp hs
  rw [List.getElem?_map, Option.map_eq_some_iff] at h1
  obtain ⟨e, he, -⟩ := h1
  rw [List.getD_eq_getElem?_getD, he]
  exact hc i hi e (List.mem_of_getElem? he)

theorem turn_extendRow (h : AffRot f Q) (hc : c.Turned c' Q f) (hb : b.Turned b' Q f) (hk : b.waveVector ≠ 0)
    {r : List ℝ} (hr : r ∈ allPhaseRows c b m) :
    extendRow c' b' (m.turned Q f) (turn10 Q r) = turnRow Q f (extendRow c b m r) := by
  have hQ := h.1
  obtain ⟨e, p1, p2, p3, p4, p5, t, x, y, z, rfl, he⟩ := allPhaseRows_shape hc.inside hr
  have hsp : c'.sphereCentroids.getD e 0 = f (c.sphereCentroids.getD e 0) := by
    rw [hc.spheres, List.getD_eq_getElem?_getD, List.getD_eq_getElem?_getD, List.getElem?_map, List.getElem?_eq_getElem he]; rfl
  have e1 : ∀ v : V3, (⟨v.x, v.y, v.z⟩ : V3) = v := fun v => rfl
  have e2 : (m.turned Q f).axis = Q.mulVec m.axis := rfl
  have hk' : Q.mulVec b.waveVector ≠ 0 := fun h => hk ((turn_eq_zero hQ).mp h)
  unfold extendRow turn10 turnRow
  dsimp only [colD]
  simp only [List.getD_cons_zero, List.getD_cons_succ, Int.floor_natCast, Int.toNat_natCast]
  simp only [e1, turn_rotate1 hQ, hb.wave, ← mulVec_add, hsp, turn_call1 h, turn_lorentz hQ hk, hb.pol, turn_polarization hQ,
    turn_twoTheta hQ hk, hc.volumes, hb.wavelength, e2]
  simp [vecAt]
  exact ⟨rfl, rfl, rfl⟩

theorem turn_sourceOf {row : List Fl} {a g k s : V3} (h7 : vecAt row 7 = some a) (h10 : vecAt row 10 = some g) (h13 : vecAt row 13 = some k)
    (h16 : vecAt row 16 = some s) : sourceOf (turnRow Q f row) = some (f s) := by
  unfold turnRow
  rw [h7, h10, h13, h16]
  have hl : 19 ≤ row.length := by
    unfold vecAt at h16
    split at h16
    · rename_i h1 h2 h3
      have := (List.getElem?_eq_some_iff.mp h3).1
      omega
    · cases h16
  have hl7 : (row.take 7).length = 7 := by simp; omega
  unfold sourceOf
  simp [List.getElem?_append, hl7]

theorem extendRow_vecs {r : List ℝ} (hl : r.length = 10) :
    ∃ a g k s, vecAt (extendRow c b m r) 7 = some a ∧ vecAt (extendRow c b m r) 10 = some g ∧ vecAt (extendRow c b m r) 13 = some k ∧
      vecAt (extendRow c b m r) 16 = some s ∧ sourceOf (extendRow c b m r) = some s ∧ (extendRow c b m r).length = 24 := by
  match r, hl with
  | [a0, a1, a2, a3, a4, a5, a6, a7, a8, a9], _ =>
    refine ⟨_, _, _, _, rfl, rfl, rfl, rfl, rfl, ?_⟩
    simp [extendRow]

theorem turn_illuminated (hb : b.Turned b' Q f) {row : List Fl} {a g k s : V3} (h7 : vecAt row 7 = some a) (h10 : vecAt row 10 = some g)
    (h13 : vecAt row 13 = some k) (h16 : vecAt row 16 = some s) (hs : sourceOf row = some s) :
    illuminated b' (turnRow Q f row) = illuminated b row := by
  unfold illuminated
  rw [turn_sourceOf h7 h10 h13 h16, hs]
  simp only [hb.contains s]

theorem turnRow_append {row : List Fl} (hl : 19 ≤ row.length) (l : List Fl) : turnRow Q f (row ++ l) = turnRow Q f row ++ l := by
  have hv : ∀ i, i + 2 < row.length → vecAt (row ++ l) i = vecAt row i := by
    intro i hi
    unfold vecAt
    rw [List.getElem?_append_left (by omega), List.getElem?_append_left (by omega), List.getElem?_append_left (by omega)]
  unfold turnRow
  rw [hv 7 (by omega), hv 10 (by omega), hv 13 (by omega), hv 16 (by omega)]
  have e1 : (row ++ l).take 7 = row.take 7 := List.take_append_of_le_length (by omega)
  have e2 : (row ++ l).drop 19 = row.drop 19 ++ l := List.drop_append_of_le_length hl
  rw [e1, e2]
  split
  · simp only [List.append_assoc]
  · rfl

/-- the dictionary of the moved experiment -/
noncomputable def PeaksDict.turned (d : PeaksDict) (Q : M3) (f : V3 → V3) (b' : Beam) : PeaksDict :=
  ⟨d.peaks.map (turnRow Q f), d.columns, Q.mulVec d.incident, d.wavelength, Q.mulVec d.rotationAxis, d.motion.turned Q f, b'⟩

theorem turn_diffractCore (h : AffRot f Q) (hc : c.Turned c' Q f) (hb : b.Turned b' Q f) (hk : b.waveVector ≠ 0) :
    diffractCore c' b' (m.turned Q f) = (diffractCore c b m).map fun d => d.turned Q f b' := by
  have hall := turn_allPhaseRows (m := m) h hc hb
  have hcp : computePeaks c' b' (m.turned Q f) = (computePeaks c b m).map (List.map (turnRow Q f)) := by
    unfold computePeaks
    rw [hc.kind, hc.phases]
    split_ifs with h1
    · rfl
    · dsimp only
      rw [hall, List.length_map]
      split_ifs with h2
      · rfl
      · show Except.ok _ = Except.ok _
        rw [List.map_map, List.map_map]
        congr 1
        apply List.map_congr_left
        intro r hr
        exact turn_extendRow h hc hb hk hr
  unfold diffractCore
  rw [hcp]
  cases hp : computePeaks c b m with
  | error e => rfl
  | ok rows =>
    obtain rfl := computePeaks_ok hp
    show Except.ok _ = Except.ok _
    congr 1
    unfold PeaksDict.turned
    dsimp only
    have hrow : ∀ row ∈ (allPhaseRows c b m).map (extendRow c b m), ∃ a g k s, vecAt row 7 = some a ∧ vecAt row 10 = some g ∧
        vecAt row 13 = some k ∧ vecAt row 16 = some s ∧ sourceOf row = some s ∧ row.length = 24 := by
      intro row hr
      obtain ⟨r, hr', rfl⟩ := List.mem_map.mp hr
      obtain ⟨e, p1, p2, p3, p4, p5, t, x, y, z, rfl, -⟩ := allPhaseRows_shape hc.inside hr'
      exact extendRow_vecs rfl
    generalize (allPhaseRows c b m).map (extendRow c b m) = rows at hrow
    have e1 : (rows.map (turnRow Q f)).filter (illuminated b') = (rows.filter (illuminated b)).map (turnRow Q f) := by
      rw [List.filter_map]
      congr 1
      apply List.filter_congr
      intro row hr
      obtain ⟨a, g, k, s, h7, h10, h13, h16, hs, -⟩ := hrow row hr
      exact turn_illuminated hb h7 h10 h13 h16 hs
    have hlen : ∀ row ∈ rows.filter (illuminated b), 19 ≤ row.length := by
      intro row hr
      obtain ⟨-, -, -, -, -, -, -, -, -, hl⟩ := hrow row (List.mem_filter.mp hr).1
      omega
    have e2 : ((rows.filter (illuminated b)).map (turnRow Q f)).mapIdx (fun i row => row ++ [fin (i : ℝ)])
        = ((rows.filter (illuminated b)).mapIdx fun i row => row ++ [fin (i : ℝ)]).map (turnRow Q f) := by
      apply List.ext_getElem?
      intro j
      rw [List.getElem?_mapIdx, List.getElem?_map, List.getElem?_map, List.getElem?_mapIdx]
      cases hj : (rows.filter (illuminated b))[j]? with
      | none => rfl
      | some row =>
        simp only [Option.map_some]
        rw [turnRow_append (hlen row (List.mem_of_getElem? hj))]
    rw [e1, e2, hb.wave, hb.wavelength]
    rfl

end tables

/-! ### limits -/

theorem turn_cornerAngle {Q : M3} {f : V3 → V3} (h : AffRot f Q) (k src p : V3) :
    Detector.cornerAngle (Q.mulVec k) (f src) (f p) = Detector.cornerAngle k src p := by
  unfold Detector.cornerAngle
  dsimp only
  rw [h.sub, turn_norm h.1 k, ← mulVec_smul, turn_unit_dot h.1]

/-- the detector of the moved experiment -/
noncomputable def Detector.turned (D : Detector) (Q : M3) (f : V3 → V3) : Detector :=
  { D with c0 := f D.c0, c1 := f D.c1, c2 := f D.c2, zdhat := Q.mulVec D.zdhat, ydhat := Q.mulVec D.ydhat, normal := Q.mulVec D.normal }

theorem turn_detector_new {Q : M3} {f : V3 → V3} (h : AffRot f Q) (c0 c1 c2 : V3) (np : PixArg ℤ) (ps : PixArg ℝ) (sg th : ℝ) (mr : ℤ)
    (l p s : Bool) : Detector.new (f c0) (f c1) (f c2) np ps sg th mr l p s = (Detector.new c0 c1 c2 np ps sg th mr l p s).map fun D => D.turned Q f := by
  unfold Detector.new
  dsimp only
  rw [h.sub, h.sub, turn_norm h.1, turn_norm h.1]
  cases pixelSizes (c2 - c0).norm (c1 - c0).norm np ps with
  | error e => rfl
  | ok pp =>
    obtain ⟨pz, py⟩ := pp
    dsimp only
    rw [← mulVec_smul, ← mulVec_smul, IsRot.cross_mulVec h.1, turn_norm h.1, ← mulVec_smul]
    simp only [turn_eq_zero h.1]
    split_ifs
    · rfl
    · rfl
    · rfl

theorem turn_wrappingCone {Q : M3} {f : V3 → V3} (h : AffRot f Q) (D : Detector) (k src : V3) :
    (D.turned Q f).wrappingCone (Q.mulVec k) (f src) = D.wrappingCone k src := by
  unfold Detector.wrappingCone Detector.turned
  dsimp only
  rw [h.sub, ← h.add_vec]
  simp only [turn_cornerAngle h]

end XRD
