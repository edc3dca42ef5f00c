import Verif.Lemmas.LLKernel
import Verif.Lemmas.LLInputs
import Verif.Examples.LL

/-!
# Turning the whole configuration (C81)
-/

namespace Verif
open V3

variable {ι : Type*} [Fintype ι] [DecidableEq ι]

/-- section turned by a linear map -/
def Section.turn (Q : V3 →ₗ[ℝ] V3) (s : Section) : Section :=
  { s with rcp := Q s.rcp, r1 := Q s.r1, r2 := Q s.r2, ua := Q s.ua, un := Q s.un, us := Q s.us }

/-- grid and CG turned by a linear map -/
def LLGeom.turn (Q : V3 →ₗ[ℝ] V3) (G : LLGeom ι) : LLGeom ι := ⟨Q G.cg, fun i => (G.S i).turn Q⟩

/-- an aero state that gives density and velocity per section, and the three rotation rates -/
def localAero (rho : ι → ℝ) (v : ι → V3) (w : V3) : AeroDict ι :=
  { localState := some fun i => (rho i, v i), roll := some w.x, pitch := some w.y, yaw := some w.z }

/-- **C81.** For every rotation `Q` (a linear map preserving scalar and vector products). -/
theorem C81_rotation (G : LLGeom ι) (Q : V3 →ₗ[ℝ] V3) (hdot : ∀ a b, dot (Q a) (Q b) = dot a b)
    (hcross : ∀ a b, cross (Q a) (Q b) = Q (cross a b)) (rho : ι → ℝ) (v : ι → V3) (w : V3) (c : Option CtrlDict)
    (R R' : Sol ι)
    (h : (llSolve G (LLState.init ι) "linear" (some (localAero rho v w)) c).1 = .ok R)
    (h' : (llSolve (G.turn Q) (LLState.init ι) "linear" (some (localAero rho (fun i => Q (v i)) (Q w))) c).1 = .ok R') :
    R'.inviscid.F = Q R.inviscid.F ∧ R'.inviscid.M = Q R.inviscid.M ∧
    R'.viscous.F = Q R.viscous.F ∧ R'.viscous.M = Q R.viscous.M ∧
    R'.total.F = Q R.total.F ∧ R'.total.M = Q R.total.M ∧
    R'.gamma = R.gamma ∧ R'.alpha = R.alpha := by
  let T : Sim := { Q := Q, flip := false, dot_Q := hdot, cross_Q := by simpa using hcross
                   len := 1, len_pos := one_pos, tr := 0, spd := 1, spd_pos := one_pos, den := 1 }
  have hsgn : T.sgn = 1 := by simp [Iso.sgn, T]
  have hpt : ∀ p, T.pt p = Q p := by intro p; simp [Sim.pt, T]
  have hS : ∀ i, SecImage T (G.S i) ((G.turn Q).S (Equiv.refl ι i)) := by
    intro i
    constructor <;> simp [hpt, hsgn, LLGeom.turn, Section.turn] <;> simp [T]
  have ht : ∀ r (v : ι → V3) w, (localAero r v w).truthy = true := by intro r v w; simp [localAero, AeroDict.truthy]
  have e1 : llSolve G (LLState.init ι) "linear" (some (localAero rho v w)) c = (.ok R, _) := Prod.ext h rfl
  have e2 : llSolve (G.turn Q) (LLState.init ι) "linear" (some (localAero rho (fun i => Q (v i)) (Q w))) c = (.ok R', _) :=
    Prod.ext h' rfl
  obtain ⟨va, ua, hva, hua, hsa, -, -⟩ := llSolve_ok e1
  obtain ⟨vb, ub, hvb, hub, hsb, -, -⟩ := llSolve_ok e2
  obtain ⟨a, ha, a1, a2, a3⟩ := llSolve_arr (ht _ _ _) e1
  obtain ⟨b, hb, b1, b2, b3⟩ := llSolve_arr (ht _ _ _) e2
  simp only [arrOf, localAero, rotArr, AeroDict.hasRates, Option.isSome_some, Bool.or_true, if_true, Option.map_some,
    Option.getD_some, Except.ok.injEq] at ha hb
  subst ha hb
  simp only at a1 a2 a3 b1 b2 b3
  rw [hva] at a1; rw [hvb] at b1; rw [hua] at a2; rw [hub] at b2
  simp only [Option.some.injEq] at a1 b1
  have hmean : meanV (fun i => Q (v i)) = (meanV v).map Q := by
    unfold meanV
    split
    · rfl
    · simp [map_sum]
  have hnrm : ∀ a, nrm (Q a) = nrm a := by intro a; simp [nrm, hdot]
  have hnorm : ∀ a, normalise (Q a) = (normalise a).map Q := by
    intro a
    unfold normalise
    rw [hnrm]
    split
    · rfl
    · simp [unit, hnrm]
  have huu : ub = Q ua := by
    have : some ub = (some ua).map Q := by
      rw [b2, a2, hmean]
      cases meanV v with
      | none => rfl
      | some m => simp [hnorm]
    simpa using this
  have hvv : ∀ i, vb i = Q (va i) := by
    intro i
    rw [a1, b1]
    simp only [LLGeom.turn, Section.turn, map_sub]
    congr 1
    rw [← map_sub, ← hcross]
  set sa := (llSolve G (LLState.init ι) "linear" (some (localAero rho v w)) c).2
  set sb := (llSolve (G.turn Q) (LLState.init ι) "linear" (some (localAero rho (fun i => Q (v i)) (Q w))) c).2
  have hF : FlowImage T (Equiv.refl ι) ⟨va, ua, sa.rho⟩ ⟨vb, ub, sb.rho⟩ := by
    constructor
    · intro i; simp only [Equiv.refl_apply, hvv]; simp [T]
    · exact huu
    · intro i
      have h1 : sa.rho i = rho i := congrFun a3 i
      have h2 : sb.rho i = rho i := congrFun b3 i
      simp only [Equiv.refl_apply, h1, h2]; simp [T]
  have hctrl : sb.ctrl = sa.ctrl := by
    have k : ∀ (G : LLGeom ι) (d : AeroDict ι) (_ : d.truthy = true) (a : Arr ι) (_ : arrOf G d = .ok a),
        (llSolve G (LLState.init ι) "linear" (some d) c).2.ctrl = (processCtrl G (LLState.init ι) c).ctrl := by
      intro G d hd a ha
      have key := processAero_explicit G (LLState.init ι) d hd
      rw [ha] at key
      obtain ⟨rt, key⟩ := key
      unfold llSolve
      rw [key]
      simp only [if_true]
      rw [← processCtrl_ctrl G (LLState.init ι) { LLState.init ι with v := a.v, u := a.u, rho := a.rho, rates := rt } c rfl]
      split <;> rfl
    obtain ⟨a, ha, -⟩ := llSolve_arr (ht _ _ _) e1
    obtain ⟨b, hb, -⟩ := llSolve_arr (ht _ _ _) e2
    rw [show sa.ctrl = _ from k _ _ (ht _ _ _) a ha, show sb.ctrl = _ from k _ _ (ht _ _ _) b hb]
    unfold processCtrl
    rfl
  have hC : CtrlImage (Equiv.refl ι) sa.ctrl sb.ctrl := by rw [hctrl]; exact ⟨fun _ => rfl, fun _ => rfl⟩
  obtain ⟨-, -, hdet, -, hga, hRa⟩ := solveLinear_ok hsa
  obtain ⟨-, -, hdetb, -, hgb, hRb⟩ := solveLinear_ok hsb
  have hinv : ∀ {A : Matrix ι ι ℝ} {x y : ι → ℝ}, A.det ≠ 0 → A.mulVec x = y → x = A⁻¹.mulVec y := by
    intro A x y hA hxy
    rw [← hxy, Matrix.mulVec_mulVec, Matrix.nonsing_inv_mul _ (isUnit_iff_ne_zero.mpr hA), Matrix.one_mulVec]
  have hγ : ∀ i, R'.gamma ((Equiv.refl ι) i) = T.spd * T.len * R.gamma i := by
    intro i
    rw [hinv hdetb hgb, hinv hdet hga]
    exact gamma_image T (Equiv.refl ι) hS hF hC hdet i
  have himg := solOf_image T (Equiv.refl ι) hS hF hC hγ G.cg
  rw [hpt] at himg
  have hcg : Q G.cg = (G.turn Q).cg := rfl
  rw [hcg, ← hRa, ← hRb] at himg
  have hk : ∀ a : V3, (T.den * T.spd ^ 2 * T.len ^ 2) • T.Q a = Q a := by intro a; simp [T]
  have hk3 : ∀ a : V3, (T.sgn * (T.den * T.spd ^ 2 * T.len ^ 3)) • T.Q a = Q a := by intro a; rw [hsgn]; simp [T]
  refine ⟨?_, ?_, ?_, ?_, ?_, ?_, ?_, ?_⟩
  · rw [himg.inviscid.F, hk]
  · rw [himg.inviscid.M, hk3]
  · rw [himg.viscous.F, hk]
  · rw [himg.viscous.M, hk3]
  · rw [himg.total.F, hk]
  · rw [himg.total.M, hk3]
  · funext i; simpa [T] using himg.gamma i
  · funext i; simpa using himg.alpha i

/-- a quarter turn about the x axis -/
def quarterTurn : V3 →ₗ[ℝ] V3 where
  toFun a := ⟨a.x, -a.z, a.y⟩
  map_add' a b := by ext <;> simp; ring
  map_smul' k a := by ext <;> simp

-- non-trivial rotations exist, and per-section flows for which the solve succeeds
example : (∀ a b, dot (quarterTurn a) (quarterTurn b) = dot a b) ∧
    (∀ a b, cross (quarterTurn a) (quarterTurn b) = quarterTurn (cross a b)) ∧ quarterTurn ⟨0, 1, 0⟩ = ⟨0, 0, 1⟩ := by
  refine ⟨fun a b => ?_, fun a b => ?_, ?_⟩
  · simp [quarterTurn, dot]; ring
  · ext <;> simp [quarterTurn] <;> ring
  · simp [quarterTurn]

example : (llSolve exGeom (LLState.init _) "linear" (some (localAero (fun _ => 1) (fun _ => ⟨-10, 0, 0⟩) 0))
    (some exCtrl)).1 = .ok exSol := by
  have ha : arrOf exGeom (localAero (fun _ : Fin 2 => 1) (fun _ => ⟨-10, 0, 0⟩) 0) =
      .ok ⟨some exFlow.v, some exFlow.u, exFlow.rho⟩ := by
    have hm : meanV (fun _ : Fin 2 => (⟨-10, 0, 0⟩ : V3)) = some ⟨-10, 0, 0⟩ := by
      simp only [meanV, Fintype.card_fin, Fin.sum_univ_two, OfNat.ofNat_ne_zero, if_false, Option.some.injEq]
      ext <;> simp <;> norm_num
    have h0 : (⟨0, 0, 0⟩ : V3) = 0 := rfl
    simp [arrOf, localAero, rotArr, AeroDict.hasRates, hm, ex_normalise, exFlow, h0]
  rw [llSolve_explicit _ _ _ _ (by simp [localAero, AeroDict.truthy]) exCtrl_truthy, ha, ex_ctrl]
  have h : solveLinear exGeom.cg exGeom.S ⟨exFlow.v, exFlow.u, exFlow.rho⟩ exC = .ok exSol := ex_solveLinear
  simp only [kern, h]

end Verif
