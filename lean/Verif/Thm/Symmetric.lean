import Verif.Lemmas.GridMirror
import Verif.Thm.LLScaling
import Verif.Thm.WingConnect
import Verif.Lemmas.PlaneOrder
import Verif.Examples.UnitPlane

/-!
# Symmetric aircraft (C27)

A plane built through the API that consists of two-sided, laterally centred wings only (attached to the plane directly
or through such wings), whose centre of gravity is on the x-z plane, makes no side force, no rolling moment and no
yawing moment in symmetric flow with symmetric controls: the grid of such a plane is its own mirror image.
-/

namespace Verif
open V3

/-- symmetric flow: no sideslip, no roll or yaw rate, no caller-supplied local velocities -/
structure SymFlow {ι : Type*} (d : AeroDict ι) : Prop where
  beta : d.beta.getD 0 = 0
  roll : d.roll.getD 0 = 0
  yaw : d.yaw.getD 0 = 0
  localState : d.localState = none

/-- symmetric controls: no aileron, no rudder (elevator and flap are free) -/
def SymCtrl (c : Option CtrlDict) : Prop := ∀ d, c = some d → d.aileron.getD 0 = 0 ∧ d.rudder.getD 0 = 0

/-- no side force (body or wind axes), rolling moment or yawing moment -/
structure Loads.Planar (l : Loads) : Prop where
  FY : l.FY = 0
  FS : l.FS = 0
  MX : l.MX = 0
  MZ : l.MZ = 0

private theorem planar_of {l : Loads} (hb : BodyLoadsImage mirSim l l)
    (hw : l.FS = -1 * (mirSim.den * mirSim.spd ^ 2 * mirSim.len ^ 2) * l.FS) : l.Planar := by
  have hF := hb.F
  have hM := hb.M
  simp only [Loads.F, Loads.M, V3.ext_iff, smul_x, smul_y, smul_z, mirSim_Q, mir_x, mir_y, mir_z, mirSim_den,
    mirSim_spd, mirSim_len, mirSim_sgn] at hF hM
  simp only [mirSim_den, mirSim_spd, mirSim_len] at hw
  exact ⟨by linarith [hF.2.1], by linarith, by linarith [hM.1], by linarith [hM.2.2]⟩

/-- the stored control deflections are the same at mirrored sections -/
private def CtrlSym {ι : Type*} (σ : ι ≃ ι) (C : Ctrl ι) : Prop :=
  (∀ i, C.delta (σ i) = C.delta i) ∧ ∀ i, C.eff (σ i) = C.eff i

private theorem processAero_ctrl {ι : Type*} [Fintype ι] (G : LLGeom ι) (st : LLState ι) (a : Option (AeroDict ι)) :
    (processAero G st a).2.ctrl = st.ctrl := by
  unfold processAero
  repeat' split
  all_goals rfl

private theorem processCtrl_sym {ι : Type*} (G : LLGeom ι) (σ : ι ≃ ι)
    (hE : ∀ i, (G.S (σ i)).mixE = (G.S i).mixE) (hF : ∀ i, (G.S (σ i)).mixF = (G.S i).mixF) (st : LLState ι)
    (c : Option CtrlDict) (hc : SymCtrl c)
    (hst : (∃ d, c = some d ∧ d.truthy = true) ∨ CtrlSym σ st.ctrl) : CtrlSym σ (processCtrl G st c).ctrl := by
  unfold processCtrl
  cases c with
  | none =>
    rcases hst with ⟨d, h, _⟩ | h
    · cases h
    · exact h
  | some d =>
    obtain ⟨ha, hr⟩ := hc d rfl
    simp only
    split
    · constructor <;> intro i <;> simp [hE, hF, ha, hr]
    · rename_i hn
      rcases hst with ⟨d', h, h'⟩ | h
      · cases h; exact absurd h' hn
      · exact h

private theorem llSolve_ctrl {ι : Type*} [Fintype ι] [DecidableEq ι] (G : LLGeom ι) (st : LLState ι) (stype : String)
    (a : Option (AeroDict ι)) (c : Option CtrlDict) :
    (llSolve G st stype a c).2.ctrl = st.ctrl ∨
    (llSolve G st stype a c).2.ctrl = (processCtrl G (processAero G st a).2 c).ctrl := by
  unfold llSolve
  have h := processAero_ctrl G st a
  generalize processAero G st a = pa at *
  obtain ⟨r, st1⟩ := pa
  cases r with
  | error e => left; exact h
  | ok u =>
    right
    simp only
    split
    · split <;> rfl
    · rfl

theorem symmetricPlane_of {nm : String} {pos : Option V3} {ops : List PlaneOp} (hpos : (pos.getD 0).y = 0)
    (h : SymmetricCalls ops) : SymmetricPlane (built nm pos ops) := by
  refine ⟨?_, fun kv hkv => symmetricChain_of fun c hc => ?_⟩
  · unfold Plane.getPosition
    rw [show (built nm pos ops).position = pos from built_position nm pos ops]
    exact hpos
  · exact h kv.1 kv.2 c ((names_iff nm pos ops _ _).1 ((mem_iff_dictGet (nodup_built nm pos ops) kv.1 kv.2).1 hkv)) hc

/-- if every accepted `add_wing` call asks for both sides and gives no lateral displacement, the calls are symmetric -/
theorem symmetricCalls_of {ops : List PlaneOp} (h : ∀ name parent location side d, .addWing name parent location side d ∈ ops →
    ValidSide side → side = "both" ∧ (d.position.getD 0).y = 0) : SymmetricCalls ops := by
  intro name c c' hn hc
  have hlt : ∀ {x}, x < wingsCreated ops → CreatedTwoSided ops x := by
    intro x hx
    obtain ⟨pre, name, parent, location, side, d, post, rfl, hv, rfl⟩ := created_by hx
    obtain ⟨rfl, hy⟩ := h name parent location side d (by simp) hv
    exact ⟨pre, name, parent, location, d, post, rfl, rfl, hy⟩
  refine hlt ?_
  have h1 : c < wingsCreated ops := by
    obtain ⟨pre, parent, location, side, d, post, rfl, hv, rfl, _⟩ := hn
    rw [show pre ++ PlaneOp.addWing name parent location side d :: post = pre ++ ([.addWing name parent location side d] ++ post) by simp,
      wingsCreated_append, wingsCreated_append, show wingsCreated [PlaneOp.addWing name parent location side d] = 1 by
        simp [wingsCreated, addCalls, hv]]
    omega
  have := attached_le (built_inv "" none ops) ((attached_iff _ _ _ _ _).2 hc)
  omega

/-- **C27.** Take any plane built through the API from two-sided, laterally centred wings, with its position and its
centre of gravity on the x-z plane, and its lifting-line model, used for any earlier `solve` calls.  A solve in
symmetric flow with symmetric controls yields no side force, rolling moment or yawing moment (inviscid, viscous and
total).  If the call brings no control dictionary, the earlier calls must have left symmetric controls. -/
theorem C27_no_lateral (nm : String) (pos : Option V3) (ops : List PlaneOp) (hpos : (pos.getD 0).y = 0)
    (hs : SymmetricCalls ops) (cosine : Bool) (g : Grid) (hg : mkGrid (built nm pos ops) cosine = .ok g) (cg : V3) (hcg : cg.y = 0)
    (h : List (LLCall (Fin g.data.length))) (d : AeroDict (Fin g.data.length)) (c : Option CtrlDict)
    (hd : d.truthy = true) (hf : SymFlow d) (hc : SymCtrl c)
    (hh : (∃ cd, c = some cd ∧ cd.truthy = true) ∨ ∀ k ∈ h, SymCtrl k.ctrl)
    (R : Sol (Fin g.data.length))
    (hR : (llSolve (g.geom cg) (llHistory (g.geom cg) (LLState.init _) h) "linear" (some d) c).1 = .ok R) :
    R.inviscid.Planar ∧ R.viscous.Planar ∧ R.total.Planar := by
  obtain ⟨σ, hσ⟩ := (grid_selfMirror (built_inv nm pos ops) (symmetricPlane_of hpos hs) hg).perm
  have hE : ∀ i, ((g.geom cg).S (σ i)).mixE = ((g.geom cg).S i).mixE := fun i => (hσ i).mixE
  have hF : ∀ i, ((g.geom cg).S (σ i)).mixF = ((g.geom cg).S i).mixF := fun i => (hσ i).mixF
  have hst : (∃ cd, c = some cd ∧ cd.truthy = true) ∨
      CtrlSym σ (llHistory (g.geom cg) (LLState.init _) h).ctrl := by
    rcases hh with hh | hh
    · exact .inl hh
    · right
      have gen : ∀ (h : List (LLCall (Fin g.data.length))) (st : LLState _), CtrlSym σ st.ctrl →
          (∀ k ∈ h, SymCtrl k.ctrl) → CtrlSym σ (llHistory (g.geom cg) st h).ctrl := by
        intro h
        induction h with
        | nil => intro st hst _; exact hst
        | cons k t ih =>
          intro st hst hk
          simp only [llHistory, List.foldl_cons] at ih ⊢
          refine ih _ ?_ fun k hk' => hk k (by simp [hk'])
          rcases llSolve_ctrl (g.geom cg) st k.stype k.aero k.ctrl with h1 | h1 <;> rw [h1]
          · exact hst
          · exact processCtrl_sym _ σ hE hF _ _ (hk k (by simp)) (.inr (by rw [processAero_ctrl]; exact hst))
      exact gen h _ ⟨fun _ => rfl, fun _ => rfl⟩ hh
  have hC := processCtrl_sym (g.geom cg) σ hE hF _ c hc hst
  have himg := llSolve_image mirSim σ (G := g.geom cg) (G' := g.geom cg) (d := d) (d' := d) (c := c) (c' := c)
    (τ := -1) (by ext <;> simp [ey]) (by simp)
    (fun i => (hσ i).image)
    (by rw [mirSim_pt]; ext <;> simp [Grid.geom, hcg]) hd hd
    (arrOf_image mirSim σ rfl
      (fun i => by
        have hr := (hσ i).image.rcp
        rw [mirSim_pt] at hr
        have e : ((g.geom cg).S (σ i)).rcp = mir ((g.geom cg).S i).rcp := hr
        rw [e, hf.roll, hf.yaw]
        ext <;> simp [Grid.geom, hcg])
      (by simp)
      (fun V => by
        rw [hf.beta]
        have := freestream_mir V (d.alpha.getD 0) 0
        rw [neg_zero] at this
        exact this)
      (fun _ => by simp) (by simp [hf.localState]))
    (llHistory (g.geom cg) (LLState.init _) h) (llHistory (g.geom cg) (LLState.init _) h)
    ⟨hC.1, hC.2⟩
  rw [hR] at himg
  simp only [Outcome] at himg
  exact ⟨planar_of himg.inviscid himg.windI.2.2, planar_of himg.viscous himg.windV.2.2,
    planar_of himg.total himg.windT.2.2⟩

theorem unit_symmetric : SymmetricCalls unitOps := by
  refine symmetricCalls_of ?_
  intro name parent location side d h _
  simp [unitOps] at h
  obtain ⟨_, _, _, rfl, rfl⟩ := h
  exact ⟨rfl, by simp⟩

-- the hypotheses are met by an aircraft with elevons, and the solve succeeds with a non-zero (vertical) force
example : SymmetricCalls unitOps ∧ unitPlane.cg.y = 0 ∧
    ∃ g, mkGrid (built "unit" none unitOps) true = .ok g ∧ SymFlow (unitAero (Fin g.data.length)) ∧
      SymCtrl (some exCtrl) ∧ ∃ R, (llSolve (g.geom unitPlane.cg) (LLState.init _) "linear" (some (unitAero _))
        (some exCtrl)).1 = .ok R ∧ R.inviscid.FZ ≠ 0 := by
  obtain ⟨g, hg, h⟩ := unit_nontrivial true
  exact ⟨unit_symmetric, by rw [unit_cg], g, hg, ⟨rfl, rfl, rfl, rfl⟩, by rintro d ⟨⟩; exact ⟨rfl, rfl⟩, h _⟩

end Verif
