import Verif.Thm.DistribFile
import Verif.Thm.MUFull
import Verif.Thm.LLSections
import Verif.Lemmas.Grid

/-!
# The tables of `distributions` (C77, C80)
-/

namespace Verif
open V3 Act

section
variable {n : ℕ} {G : LLGeom (Fin n)} {wings props : Bool} {simps : List ℝ → List ℝ → ℝ} {fuel : ℕ} {Sw lat long : ℝ}
  {bad : Act (LLState (Fin n) × List (PropSlot (Fin n))) (Option Loads)}

theorem lift_run {S α : Type} (x : Except PyErr α) (s : S) : (Act.lift x : Act S α) s = (x, s) := by
  rcases x with e | a <;> rfl

/-- a `distributions` call that returns -/
theorem distributions_ok {ps : Option PropDict} {w w' : World (fullBackend G wings props simps fuel Sw lat long bad)}
    {wt : Option (List WingRow)} {pt : Option (List PropRow)}
    (h : distributions G wings props simps fuel Sw lat long bad ps w = (.ok (wt, pt), w')) :
    ∃ T, muSolve (B := fullBackend G wings props simps fuel Sw lat long bad) ps w = (.ok T, w') ∧
      wingTable w'.st G wings long = .ok wt ∧ propTable w'.st props = .ok pt := by
  unfold distributions at h
  obtain ⟨T, w1, h1, h⟩ := bind_ok.1 h
  rw [get_bind] at h
  obtain ⟨wt', w2, h2, h⟩ := bind_ok.1 h
  obtain ⟨pt', w3, h3, h⟩ := bind_ok.1 h
  rw [lift_run] at h2 h3
  simp only [Prod.mk.injEq] at h2 h3
  obtain ⟨h2, rfl⟩ := h2
  obtain ⟨h3, rfl⟩ := h3
  simp only [pure_run, Prod.mk.injEq, Except.ok.injEq] at h
  obtain ⟨⟨rfl, rfl⟩, rfl⟩ := h
  exact ⟨T, h1, h2, h3⟩

/-- the wing table belongs to a lifting-line solve -/
theorem wingTable_solve {ps : Option PropDict} {w w' : World (fullBackend G true props simps fuel Sw lat long bad)}
    {wt : Option (List WingRow)} {pt : Option (List PropRow)}
    (h : distributions G true props simps fuel Sw lat long bad ps w = (.ok (wt, pt), w')) :
    ∃ st d c R, llSolve G st "linear" (some d) c = (.ok R, w'.st.1) ∧ long ≠ 0 ∧ wt = some (List.ofFn fun i => wingRow G long R i) := by
  obtain ⟨T, h1, h2, -⟩ := distributions_ok h
  obtain ⟨field, st1, prop, wing, -, hw, -⟩ := muSolve_ok h1
  rw [if_pos (show (fullBackend G true props simps fuel Sw lat long bad).hasWings = true from rfl)] at hw
  obtain ⟨R, -, hR⟩ := hw
  obtain ⟨hl, -⟩ := full_wing hR
  obtain ⟨v, u, -, -, -, hres, -⟩ := llSolve_ok hl
  refine ⟨_, _, _, R, hl, ?_⟩
  unfold wingTable at h2
  rw [if_pos rfl, hres] at h2
  simp only at h2
  split_ifs at h2 with h0
  cases h2
  exact ⟨h0, rfl⟩

/-! ### Wings -/

theorem under_wing (r : WingRow) :
    under "Twist(deg)" wingCaptions r.columns = some r.twist ∧ under "Dihedral(deg)" wingCaptions r.columns = some r.dihedral ∧
    under "Sweep(deg)" wingCaptions r.columns = some r.sweep ∧ under "Alpha(deg)" wingCaptions r.columns = some r.alpha ∧
    under "Area" wingCaptions r.columns = some r.area ∧ under "SectionCL" wingCaptions r.columns = some r.CL := by
  refine ⟨?_, ?_, ?_, ?_, ?_, ?_⟩ <;> simp [under, wingCaptions, WingRow.columns, List.lookup]

theorem under_prop (r : PropRow) :
    under "Pitch(deg)" propCaptions r.columns = some r.pitch ∧ under "AdvangeAngle(deg)" propCaptions r.columns = some r.advance ∧
    under "InducedAngle(deg)" propCaptions r.columns = some r.induced ∧ under "Alpha(deg)" propCaptions r.columns = some r.alpha ∧
    under "RadialPosition" propCaptions r.columns = some r.r := by
  refine ⟨?_, ?_, ?_, ?_, ?_⟩ <;> simp [under, propCaptions, PropRow.columns, List.lookup]

/-- what the grid of a plane contains -/
theorem grid_mem {p : Plane} {c : Bool} {g : Grid} (hg : mkGrid p c = .ok g) {x : GridSec} (hx : x ∈ g.data) :
    ∃ s ∈ p.segments, ∃ l r i, x = (segSection c s l r i).withIc2 := by
  obtain ⟨vs, hvs, hd, -⟩ := mkGrid_ok hg
  rw [hd, List.mem_map] at hx
  obtain ⟨y, hy, rfl⟩ := hx
  obtain ⟨v, hv, hyv⟩ := List.mem_flatten.1 hy
  clear hd hy hg
  generalize p.segments = segs at hvs
  induction hvs with
  | nil => simp at hv
  | @cons s v' segs vs h1 h2 ih =>
    rcases List.mem_cons.1 hv with rfl | hv
    · obtain ⟨l, r, -, -, -, -, -, -, rfl⟩ := segData_ok h1
      obtain ⟨i, -, rfl⟩ := List.mem_map.1 hyv
      exact ⟨s, by simp, l, r, i, rfl⟩
    · obtain ⟨s', hs', h⟩ := ih hv
      exact ⟨s', by simp [hs'], h⟩

/-- **C80 in part: the wing table.** For every plane and every row of its wing table there is a section of the grid such that: the
numbers under `Twist(deg)` and `Dihedral(deg)` are, in degrees, the angles by which the axial and normal directions of the section are
turned from the axes of the plane, and the number under `Sweep(deg)` is, in degrees, the angle in the area of the section.  Missing:
`Alpha(deg)`, see `C80_refuted`. -/
theorem C80_wing_partial {p : Plane} {c : Bool} {g : Grid} (hg : mkGrid p c = .ok g) (cg : V3) {props : Bool} {simps : List ℝ → List ℝ → ℝ}
    {fuel : ℕ} {Sw lat long : ℝ} {bad : Act (LLState (Fin g.data.length) × List (PropSlot (Fin g.data.length))) (Option Loads)}
    {ps : Option PropDict} {w w' : World (fullBackend (g.geom cg) true props simps fuel Sw lat long bad)} {t : List WingRow}
    {pt : Option (List PropRow)}
    (h : distributions (g.geom cg) true props simps fuel Sw lat long bad ps w = (.ok (some t, pt), w')) :
    ∀ r ∈ t, ∃ x ∈ g.data, ∃ twist dihedral sweep area σ : ℝ, r.name = x.name ∧
      under "Twist(deg)" wingCaptions r.columns = some twist ∧ under "Dihedral(deg)" wingCaptions r.columns = some dihedral ∧
      under "Sweep(deg)" wingCaptions r.columns = some sweep ∧ under "Area" wingCaptions r.columns = some area ∧ (σ = 1 ∨ σ = -1) ∧
      (∀ τ δ Λ, IsDegrees twist τ → IsDegrees dihedral δ → IsDegrees sweep Λ →
        x.ua = ⟨-Real.cos τ, σ * Real.sin δ * Real.sin τ, Real.cos δ * Real.sin τ⟩ ∧
        x.un = ⟨-Real.sin τ, -(σ * Real.sin δ * Real.cos τ), -(Real.cos δ * Real.cos τ)⟩ ∧
        area = Real.cos Λ * nrm (x.r2 - x.r1) * (x.c1 + x.c2) / 2) := by
  obtain ⟨st, d, ct, R, -, -, ht⟩ := wingTable_solve h
  cases ht
  intro r hr
  obtain ⟨i, rfl⟩ := List.mem_ofFn.1 hr
  refine ⟨g.data.get i, List.get_mem _ _, ?_⟩
  obtain ⟨u1, u2, u3, -, u5, -⟩ := under_wing (wingRow (g.geom cg) long R i)
  obtain ⟨s, -, l, q, j, hx⟩ := grid_mem hg (List.get_mem g.data i)
  refine ⟨_, _, _, _, if s.side = .left then -1 else 1, rfl, u1, u2, u3, u5, by split_ifs <;> simp, ?_⟩
  intro τ δ Λ h1 h2 h3
  unfold IsDegrees at h1 h2 h3
  have e : ∀ f : GridSec → ℝ, f (g.data.get i) = f (segSection c s l q j).withIc2 := fun f => by rw [hx]
  have e1 : (wingRow (g.geom cg) long R i).twist = s.mount - (segSection c s l q j).washout := e fun x => x.twist
  have e2 : (wingRow (g.geom cg) long R i).dihedral = s.dihedral := e fun x => x.dihedral
  have e3 : (wingRow (g.geom cg) long R i).sweep = s.sweep := e fun x => x.sweep
  rw [e1] at h1
  rw [e2] at h2
  rw [e3] at h3
  rw [hx]
  have fu : (segSection c s l q j).withIc2.ua = (frame s.side s.mount (segSection c s l q j).washout s.dihedral).1 := rfl
  have fn : (segSection c s l q j).withIc2.un = (frame s.side s.mount (segSection c s l q j).washout s.dihedral).2 := rfl
  rw [fu, fn]
  refine ⟨?_, ?_, ?_⟩
  · unfold frame
    rw [h1, h2]
    rcases hs : s.side <;> ext <;> simp
  · unfold frame
    rw [h1, h2]
    rcases hs : s.side <;> ext <;> simp
  · have e4 : (wingRow (g.geom cg) long R i).area = (segSection c s l q j).withIc2.area := e fun x => x.area
    rw [e4, ← h3]
    rfl

/-- **C80 fails: the wing table, in general.** In every row of the wing table the number under `Alpha(deg)` is the incidence of the
section in radians; so it is the incidence in degrees only where the incidence is zero. -/
theorem C80_alpha {ps : Option PropDict} {w w' : World (fullBackend G true props simps fuel Sw lat long bad)} {t : List WingRow}
    {pt : Option (List PropRow)} (h : distributions G true props simps fuel Sw lat long bad ps w = (.ok (some t, pt), w')) :
    ∃ R, w'.st.1.results = some R ∧ t.length = n ∧ ∀ i : Fin n, ∃ r x α, t[i.val]? = some r ∧ r.name = (G.S i).name ∧
      IsIncidence (G.S i) (R.vi i) α ∧ under "Alpha(deg)" wingCaptions r.columns = some x ∧ x = α ∧ (IsDegrees x α ↔ α = 0) := by
  obtain ⟨st, d, ct, R, hl, -, ht⟩ := wingTable_solve h
  cases ht
  obtain ⟨v, u, -, -, -, hres, -⟩ := llSolve_ok hl
  obtain ⟨v', u', -, -, hsec, -⟩ := C83_sections _ _ _ _ _ _ _ hl
  refine ⟨R, hres, by simp, fun i => ⟨wingRow G long R i, R.alpha i, R.alpha i, ?_, rfl, (hsec i).1,
    (under_wing _).2.2.2.1, rfl, ?_⟩⟩
  · rw [List.getElem?_ofFn]
    simp
  · unfold IsDegrees
    constructor
    · intro hx
      have : R.alpha i * (Real.pi - 180) = 0 := by linarith
      rcases mul_eq_zero.1 this with h0 | h0
      · exact h0
      · exfalso
        have := Real.pi_lt_four
        linarith
    · intro h0; rw [h0]; ring

/-! ### Propellers -/

/-- the coefficients an analysis ends with come from an evaluation at some advance ratio -/
def Evaluated {ι : Type} (M : PropM ι) (simps : List ℝ → List ℝ → ℝ) (fuel : ℕ) (c : Coefs) : Prop :=
  ∃ J st st', findCoefs M simps fuel J st = (.ok c, st')

theorem rateLoop_evaluated {P : Coefs → Prop} {f : ℝ → Act PropSt (ℝ × Coefs)}
    (hf : ∀ x st y c st', f x st = (.ok (y, c), st') → P c) (fuel : ℕ) : ∀ {x0 x1 y0 y1 : ℝ} {c : Coefs} {st st' : PropSt} {m : ℝ} {c' : Coefs},
    P c → rateLoop f fuel x0 x1 y0 y1 c st = (.ok (m, c'), st') → P c' := by
  induction fuel with
  | zero => intro x0 x1 y0 y1 c st st' m c' _ h; cases h
  | succ k ih =>
    intro x0 x1 y0 y1 c st st' m c' hc h
    unfold rateLoop at h
    obtain ⟨_, s1, -, h⟩ := bind_ok.1 h
    simp only at h
    split_ifs at h
    · simp only [pure_run, Prod.mk.injEq, Except.ok.injEq] at h
      obtain ⟨⟨-, rfl⟩, -⟩ := h
      exact hc
    · obtain ⟨⟨y, c1⟩, s2, h2, h⟩ := bind_ok.1 h
      exact ih (hf _ _ _ _ _ h2) h

theorem findRate_evaluated {P : Coefs → Prop} {f : ℝ → Act PropSt (ℝ × Coefs)}
    (hf : ∀ x st y c st', f x st = (.ok (y, c), st') → P c) {fuel : ℕ} {st st' : PropSt} {m : ℝ} {c : Coefs}
    (h : findRate f fuel st = (.ok (m, c), st')) : P c := by
  unfold findRate at h
  rw [get_bind] at h
  obtain ⟨⟨y0, c0⟩, s1, h1, h⟩ := bind_ok.1 h
  simp only at h
  split_ifs at h
  · simp only [pure_run, Prod.mk.injEq, Except.ok.injEq] at h
    obtain ⟨⟨-, rfl⟩, -⟩ := h
    exact hf _ _ _ _ _ h1
  · obtain ⟨⟨y1, c1⟩, s2, h2, h⟩ := bind_ok.1 h
    exact rateLoop_evaluated hf _ (hf _ _ _ _ _ h2) h

theorem coefsAtRate_evaluated {ι : Type} {M : PropM ι} {V m : ℝ} {st st' : PropSt} {c : Coefs}
    (h : coefsAtRate M simps fuel V m st = (.ok c, st')) : Evaluated M simps fuel c := by
  unfold coefsAtRate at h
  obtain ⟨_, s1, -, h⟩ := bind_ok.1 h
  obtain ⟨_, s2, -, h⟩ := bind_ok.1 h
  exact ⟨_, _, _, h⟩

theorem driveCoefs_evaluated {ι : Type} {M : PropM ι} {fl : PFlow} {dr : Drive} {st st' : PropSt} {c : Coefs}
    (h : driveCoefs M simps fuel fl dr st = (.ok c, st')) : Evaluated M simps fuel c := by
  rcases dr with J | P | thr
  · exact ⟨J, st, st', h⟩
  · unfold driveCoefs at h
    obtain ⟨⟨m, c1⟩, s1, h1, h⟩ := bind_ok.1 h
    simp only [change_bind] at h
    obtain ⟨_, s2, -, h⟩ := bind_ok.1 h
    simp only [pure_run, Prod.mk.injEq, Except.ok.injEq] at h
    obtain ⟨rfl, -⟩ := h
    refine findRate_evaluated (fun x st y c st' hx => ?_) h1
    unfold powerDiff at hx
    obtain ⟨c2, s3, h3, hx⟩ := bind_ok.1 hx
    simp only [pure_run, Prod.mk.injEq, Except.ok.injEq] at hx
    obtain ⟨⟨-, rfl⟩, -⟩ := hx
    exact coefsAtRate_evaluated h3
  · unfold driveCoefs at h
    rcases hm : M.motor with _ | mo
    · rw [hm] at h; cases h
    rw [hm] at h
    simp only at h
    obtain ⟨⟨m, c1⟩, s1, h1, h⟩ := bind_ok.1 h
    simp only [change_bind] at h
    obtain ⟨_, s2, -, h⟩ := bind_ok.1 h
    simp only [pure_run, Prod.mk.injEq, Except.ok.injEq] at h
    obtain ⟨rfl, -⟩ := h
    refine findRate_evaluated (fun x st y c st' hx => ?_) h1
    unfold torqueDiff at hx
    obtain ⟨c2, s3, h3, hx⟩ := bind_ok.1 hx
    obtain ⟨_, s4, -, hx⟩ := bind_ok.1 hx
    simp only [pure_run, Prod.mk.injEq, Except.ok.injEq] at hx
    obtain ⟨⟨-, rfl⟩, -⟩ := hx
    exact coefsAtRate_evaluated h3

theorem runProp_evaluated {ι : Type} {M : PropM ι} {aero : Option (AeroDict ι)} {s : PropDict} {st st' : PropSt} {o : PropOut}
    (h : runProp simps fuel M aero s st = (.ok o, st')) : Evaluated M simps fuel o.c ∧ 2 ≤ M.nodes := by
  unfold runProp at h
  obtain ⟨fl, s1, -, h⟩ := bind_ok.1 h
  obtain ⟨dr, s2, -, h⟩ := bind_ok.1 h
  obtain ⟨c, h1, h2⟩ := calcForces_ok h
  rw [(forcesOf_out h2).2]
  refine ⟨driveCoefs_evaluated h1, ?_⟩
  by_contra hn
  unfold calcForces at h
  obtain ⟨c, s1, -, h⟩ := bind_ok.1 h
  rw [if_pos (by omega)] at h
  cases h

/-- after a loop over the propellers each of them has results, which come from an evaluation -/
theorem propsLoop_outs {ι : Type} {aero : Option (AeroDict ι)} {ps : PropDict} {sls sls' : List (PropSlot ι)} {acc acc' : PropAcc}
    {outs : List PropOut} (h : propsLoop simps fuel aero ps sls acc = (.ok (acc', outs), sls')) :
    ∀ sl ∈ sls', ∃ o, sl.out = some o ∧ Evaluated sl.model simps fuel o.c ∧ 2 ≤ sl.model.nodes := by
  induction sls generalizing acc acc' outs sls' with
  | nil =>
    simp only [propsLoop, Prod.mk.injEq] at h
    obtain ⟨-, rfl⟩ := h
    simp
  | cons sl rest ih =>
    unfold propsLoop at h
    split at h
    · cases h
    · split at h
      · cases h
      · rename_i o st hr
        split at h
        · rename_i acc2 outs2 rest2 hl
          simp only [Prod.mk.injEq, Except.ok.injEq] at h
          obtain ⟨-, rfl⟩ := h
          intro x hx
          rcases List.mem_cons.1 hx with rfl | hx
          · exact ⟨o, rfl, runProp_evaluated hr⟩
          · exact ih hl x hx
        · cases h

theorem propRows_ok {ι : Type} {sls : List (PropSlot ι)} {t : List PropRow} (h : propRows sls = .ok t) :
    ∀ r ∈ t, ∃ sl ∈ sls, ∃ o i, sl.out = some o ∧ i < sl.model.nodes ∧ r = propRow sl.name sl.model o i := by
  induction sls generalizing t with
  | nil => cases h; simp
  | cons sl rest ih =>
    unfold propRows at h
    rcases ho : sl.out with _ | o
    · rw [ho] at h; cases h
    · rw [ho] at h
      simp only at h
      rcases hr : propRows rest with e | t'
      · rw [hr] at h; cases h
      · rw [hr] at h
        simp only [Except.map, Except.ok.injEq] at h
        subst h
        intro r hm
        rcases List.mem_append.1 hm with hm | hm
        · obtain ⟨i, hi, rfl⟩ := List.mem_map.1 hm
          exact ⟨sl, by simp, o, i, ho, by simpa using hi, rfl⟩
        · obtain ⟨sl', hs, h'⟩ := ih hr r hm
          exact ⟨sl', by simp [hs], h'⟩

theorem propRows_of {ι : Type} {sls : List (PropSlot ι)} (h : ∀ sl ∈ sls, ∃ o, sl.out = some o) : ∃ t, propRows sls = .ok t := by
  induction sls with
  | nil => exact ⟨_, rfl⟩
  | cons sl rest ih =>
    obtain ⟨o, ho⟩ := h sl (by simp)
    obtain ⟨t, ht⟩ := ih fun sl hs => h sl (by simp [hs])
    unfold propRows
    rw [ho, ht]
    exact ⟨_, rfl⟩

theorem propRows_ne {ι : Type} {sls : List (PropSlot ι)} {t : List PropRow} (h : propRows sls = .ok t) (hs : sls ≠ [])
    (hn : ∀ sl ∈ sls, 2 ≤ sl.model.nodes) : t ≠ [] := by
  rcases sls with _ | ⟨sl, rest⟩
  · exact absurd rfl hs
  unfold propRows at h
  rcases ho : sl.out with _ | o
  · rw [ho] at h; cases h
  rw [ho] at h
  simp only at h
  rcases hr : propRows rest with e | t'
  · rw [hr] at h; cases h
  rw [hr] at h
  simp only [Except.map, Except.ok.injEq] at h
  subst h
  have := hn sl (by simp)
  intro h0
  have h1 := congrArg List.length h0
  simp only [List.length_append, List.length_map, List.length_range, List.length_nil] at h1
  omega

/-- the propellers after a successful `solve` -/
theorem muSolve_slots {ps : Option PropDict} {w w' : World (fullBackend G wings true simps fuel Sw lat long bad)} {T : Loads}
    (h : muSolve (B := fullBackend G wings true simps fuel Sw lat long bad) ps w = (.ok T, w')) :
    w'.st.2 ≠ [] ∧ ∀ sl ∈ w'.st.2, ∃ o, sl.out = some o ∧ Evaluated sl.model simps fuel o.c ∧ 2 ≤ sl.model.nodes := by
  obtain ⟨field, st1, prop, wing, hp, hw, -⟩ := muSolve_ok h
  rw [if_pos (show (fullBackend G wings true simps fuel Sw lat long bad).hasProps = true from rfl)] at hp
  obtain ⟨r, -, hp⟩ := hp
  obtain ⟨hp, -⟩ := full_prop hp
  obtain ⟨outs, hf⟩ := propsSolve_forces hp
  obtain ⟨d, u, acc, -, -, hl, -, hlast, -⟩ := propsForces_ok hf
  have hs : ∀ sl ∈ (show LLState (Fin n) × List (PropSlot (Fin n)) from st1).2, ∃ o, sl.out = some o ∧ Evaluated sl.model simps fuel o.c ∧
      2 ≤ sl.model.nodes := propsLoop_outs hl
  have hne : (show LLState (Fin n) × List (PropSlot (Fin n)) from st1).2 ≠ [] := by
    obtain ⟨-, -, -, e1, -, -, e2⟩ := propsLoop_ok hl
    intro h0
    have e2' : ((show LLState (Fin n) × List (PropSlot (Fin n)) from st1).2).map PropSlot.out = outs.map some := e2
    rw [h0] at e2'
    have : outs = [] := by simpa using e2'.symm
    rw [this, hlast] at e1
    cases e1
  have he : (show LLState (Fin n) × List (PropSlot (Fin n)) from w'.st).2 = (show LLState (Fin n) × List (PropSlot (Fin n)) from st1).2 := by
    split_ifs at hw
    · obtain ⟨R, -, hR⟩ := hw
      exact (full_wing hR).2
    · rw [hw.2]
  refine ⟨fun h0 => hne (he ▸ h0), fun sl hsl => ?_⟩
  exact hs sl (he ▸ hsl)

/-- `distributions` succeeds whenever `solve` does (and the reference length is not zero) -/
theorem distributions_of {ps : Option PropDict} {w w' : World (fullBackend G true true simps fuel Sw lat long bad)} {T : Loads} (hlong : long ≠ 0)
    (h : muSolve (B := fullBackend G true true simps fuel Sw lat long bad) ps w = (.ok T, w')) :
    ∃ t pt, distributions G true true simps fuel Sw lat long bad ps w = (.ok (some t, some pt), w') := by
  obtain ⟨field, st1, prop, wing, -, hw, -⟩ := muSolve_ok h
  rw [if_pos (show (fullBackend G true true simps fuel Sw lat long bad).hasWings = true from rfl)] at hw
  obtain ⟨R, -, hR⟩ := hw
  obtain ⟨hl, -⟩ := full_wing hR
  obtain ⟨v, u, -, -, -, hres, -⟩ := llSolve_ok hl
  obtain ⟨pt, hpt⟩ := propRows_of fun sl hs => ((muSolve_slots h).2 sl hs).imp fun _ h => h.1
  refine ⟨List.ofFn fun i => wingRow G long R i, pt, ?_⟩
  unfold distributions
  rw [bind_of_ok h, get_bind]
  have h2 : wingTable w'.st G true long = .ok (some (List.ofFn fun i => wingRow G long R i)) := by
    unfold wingTable
    rw [if_pos rfl, hres]
    simp only
    rw [if_neg hlong]
  have h3 : propTable w'.st true = .ok (some pt) := by
    unfold propTable
    rw [if_pos rfl, hpt]; rfl
  rw [bind_of_ok ((lift_run _ _).trans (by rw [h2])), bind_of_ok ((lift_run _ _).trans (by rw [h3]))]
  rfl

theorem degrees_spec (x : ℝ) : IsDegrees (degrees x) x := by
  unfold IsDegrees degrees
  have := Real.pi_ne_zero
  field_simp

theorem propTable_rows {st : LLState (Fin n) × List (PropSlot (Fin n))} {t : List PropRow} (h : propTable st true = .ok (some t)) :
    propRows st.2 = .ok t := by
  unfold propTable at h
  rw [if_pos rfl] at h
  rcases hp : propRows st.2 with e | t'
  · rw [hp] at h; cases h
  · rw [hp] at h; cases h; rfl

/-- the propeller table is not empty -/
theorem propTable_nonempty {ps : Option PropDict} {w w' : World (fullBackend G wings true simps fuel Sw lat long bad)}
    {wt : Option (List WingRow)} {pt : Option (List PropRow)}
    (h : distributions G wings true simps fuel Sw lat long bad ps w = (.ok (wt, pt), w')) : ∃ t r, pt = some (t ++ [r]) := by
  obtain ⟨T, h1, -, h3⟩ := distributions_ok h
  obtain ⟨h4, h5⟩ := muSolve_slots h1
  have h3' : propTable (show LLState (Fin n) × List (PropSlot (Fin n)) from w'.st) true = .ok pt := h3
  have hpt : ∃ t, pt = some t := by
    unfold propTable at h3'
    rw [if_pos rfl] at h3'
    rcases hp : propRows (show LLState (Fin n) × List (PropSlot (Fin n)) from w'.st).2 with e | t'
    · rw [hp] at h3'; cases h3'
    · rw [hp] at h3'; cases h3'; exact ⟨_, rfl⟩
  obtain ⟨t, rfl⟩ := hpt
  have hr := propTable_rows h3'
  have hne : t ≠ [] := by
    exact propRows_ne hr h4 fun sl hs => (h5 sl hs).choose_spec.2.2
  rcases List.eq_nil_or_concat t with h0 | ⟨t', r, h0⟩
  · exact absurd h0 hne
  · exact ⟨t', r, by rw [h0]; simp⟩

/-- **C80 in part: the propeller table.** In every row, the numbers under `Pitch(deg)`, `AdvangeAngle(deg)`, `InducedAngle(deg)` and
`Alpha(deg)` are in degrees: for some advance ratio `J` and blade station, with `β`, `ε∞`, `εi`, `α` those numbers in radians, `β` is the
pitch angle of the blade there, `ε∞` the angle of the velocity `(πζ, J)`, `α = β - ε∞ - εi`, and the induced velocity has the components
`Vi cos (ε∞ + εi)` and `Vi sin (ε∞ + εi)`. -/
theorem C80_props_partial {ps : Option PropDict} {w w' : World (fullBackend G wings true simps fuel Sw lat long bad)}
    {wt : Option (List WingRow)} {t : List PropRow}
    (h : distributions G wings true simps fuel Sw lat long bad ps w = (.ok (wt, some t), w')) :
    ∀ r ∈ t, ∃ sl ∈ w'.st.2, ∃ i J pitch adv ind alpha, i < sl.model.nodes ∧ r.name = sl.name ∧
      under "Pitch(deg)" propCaptions r.columns = some pitch ∧ under "AdvangeAngle(deg)" propCaptions r.columns = some adv ∧
      under "InducedAngle(deg)" propCaptions r.columns = some ind ∧ under "Alpha(deg)" propCaptions r.columns = some alpha ∧
      ∀ β e e' α, IsDegrees pitch β → IsDegrees adv e → IsDegrees ind e' → IsDegrees alpha α →
        β = (sl.model.stn i).beta ∧ α = β - e - e' ∧
        (∃ q, 0 ≤ q ∧ Real.pi * (sl.model.stn i).zeta = q * Real.cos e ∧ J = q * Real.sin e) ∧
        r.Vx = r.Vi * Real.cos (e' + e) ∧ r.Vt = r.Vi * Real.sin (e' + e) := by
  obtain ⟨T, h1, -, h3⟩ := distributions_ok h
  have hp := propTable_rows h3
  intro r hr
  obtain ⟨sl, hsl, o, i, ho, hi, rfl⟩ := propRows_ok hp r hr
  obtain ⟨o', ho', ⟨J, st, st', hc⟩, -⟩ := (muSolve_slots h1).2 sl hsl
  obtain rfl : o = o' := by rw [ho] at ho'; cases ho'; rfl
  obtain ⟨-, -, ha, he, -⟩ := findCoefs_integrals hc
  obtain ⟨u1, u2, u3, u4, -⟩ := under_prop (propRow sl.name sl.model o i)
  refine ⟨sl, hsl, i, J, _, _, _, _, hi, rfl, u1, u2, u3, u4, ?_⟩
  intro β e e' α g1 g2 g3 g4
  obtain rfl : (sl.model.stn i).beta = β := (degrees_spec _).symm.trans g1
  obtain rfl : o.c.einf i = e := (degrees_spec _).symm.trans g2
  obtain rfl : o.c.ei i = e' := (degrees_spec _).symm.trans g3
  obtain rfl : o.c.alpha i = α := (degrees_spec _).symm.trans g4
  refine ⟨rfl, ha i, ?_, rfl, rfl⟩
  rw [he i]
  obtain ⟨-, -, q, hq, q1, q2⟩ := arctan2_spec J (Real.pi * (sl.model.stn i).zeta)
  exact ⟨q, hq, q1, q2⟩

/-! ### The file of a call -/

/-- **C77 fails for every plane with propellers**: whenever `distributions` returns and its file name ends in `json`, the file that it
leaves is no JSON text. -/
theorem C77_refuted_planes {num : ℝ → List Char} (hn : NumFormat num) {cap : ℕ} (hc : 250 ≤ cap) {filename : String} (hj : AsksJson filename)
    (old : Option (List Char)) {ps : Option PropDict} {w w' : World (fullBackend G wings true simps fuel Sw lat long bad)}
    {wt : Option (List WingRow)} {pt : Option (List PropRow)}
    (h : distributions G wings true simps fuel Sw lat long bad ps w = (.ok (wt, pt), w')) :
    ∃ file, distributionsFile num cap filename old wt pt = .ok (some file) ∧ ¬ JsonText.IsText file := by
  obtain ⟨t, r, rfl⟩ := propTable_nonempty h
  obtain ⟨file, doc, rest, h1, -, -, h2⟩ := C77_refuted hn hc hj old wt t r
  exact ⟨file, h1, h2⟩

/-- **C77 in part, for every plane without propellers**: whenever `distributions` returns and its file name ends in `json`, the file
that it leaves is a JSON text from which the lines of the wing table can be read. -/
theorem C77_planes_partial {num : ℝ → List Char} (hn : NumFormat num) (cap : ℕ) {filename : String} (hj : AsksJson filename)
    (old : Option (List Char)) {ps : Option PropDict} {w w' : World (fullBackend G true false simps fuel Sw lat long bad)}
    {wt : Option (List WingRow)} {pt : Option (List PropRow)} (hS : ∀ i, OneLine (G.S i).name)
    (h : distributions G true false simps fuel Sw lat long bad ps w = (.ok (wt, pt), w')) :
    ∃ file t, wt = some t ∧ t.length = n ∧ distributionsFile num cap filename old wt pt = .ok (some file) ∧
      JsonText.ObjectOfString file "data".toList (endLines "newline".toList (wingLines num t)) := by
  obtain ⟨st, d, ct, R, hl, -, rfl⟩ := wingTable_solve h
  obtain ⟨T, -, -, h3⟩ := distributions_ok h
  have : pt = none := by
    unfold propTable at h3
    cases h3; rfl
  subst this
  obtain ⟨doc, h1, -, h2⟩ := C77_json_partial hn cap hj old (List.ofFn fun i => wingRow G long R i) (by
    intro r hr
    obtain ⟨i, rfl⟩ := List.mem_ofFn.1 hr
    exact hS i)
  exact ⟨doc, _, rfl, by simp, h1, h2⟩

end

/-! ### The plane with the pusher propeller -/

section Demo
variable (bad : Act (LLState (Fin 2) × List (PropSlot (Fin 2))) (Option Loads))

/-- C77, C80: a call that returns two tables -/
theorem pusher_tables : ∃ (w w' : World (pusher bad)) (ps : Option PropDict) (t : List WingRow) (pt : List PropRow),
    distributions exGeom true true (fun _ _ => 1) 1 1 1 1 bad ps w = (.ok (some t, some pt), w') := by
  obtain ⟨M, mem, T, w', -, h, -⟩ := pusher_run bad
  obtain ⟨t, pt, ht⟩ := distributions_of one_ne_zero h
  exact ⟨_, w', _, t, pt, ht⟩

/-- C77: a call that returns for the plane without propellers; its names have no line breaks -/
theorem glider_table : (∀ i, OneLine (exGeom.S i).name) ∧ ∃ (w w' : World (glider bad)) (ps : Option PropDict) (t : List WingRow),
    distributions exGeom true false (fun _ _ => 1) 1 1 1 1 bad ps w = (.ok (some t, none), w') ∧ w'.st.1.results = some exSol := by
  refine ⟨?_, ?_⟩
  · intro i
    unfold OneLine
    fin_cases i
    · show '\n' ∉ "left_w".toList
      decide
    · show '\n' ∉ "right_w".toList
      decide
  · let w : World (glider bad) := { st := (LLState.init _, []), aero := some exAero, ctrl := some exCtrl }
    have hm : ∃ T w', muSolve (B := glider bad) none w = (.ok T, w') := by
      have := muSolve_wings (ps := none) (w := w) rfl (by exact exAero_truthy)
      have e : (llSolve exGeom w.st.1 "linear" (some exAero) w.ctrl).1 = .ok exSol := ex_solve _
      rw [e] at this
      rcases hq : muSolve (B := glider bad) none w with ⟨x, w'⟩
      have h1 : x = _ := (congrArg Prod.fst hq).symm.trans this
      exact ⟨_, w', by rw [h1]; rfl⟩
    obtain ⟨T, w', hm⟩ := hm
    obtain ⟨field, st1, prop, wing, hp, hw, -⟩ := muSolve_ok hm
    rw [if_neg (show ¬ (glider bad).hasProps = true from by show ¬ false = true; decide)] at hp
    rw [if_pos (show (glider bad).hasWings = true from rfl)] at hw
    obtain ⟨R, -, hR⟩ := hw
    obtain ⟨-, rfl, rfl⟩ := hp
    obtain ⟨hl, -⟩ := full_wing hR
    have hu : usedAero w = exAero := by
      unfold usedAero
      exact if_pos exAero_truthy
    have hl' : llSolve exGeom (LLState.init _) "linear" (some exAero) (some exCtrl) = (.ok R, (show LLState (Fin 2) × List (PropSlot (Fin 2)) from w'.st).1) := by
      have := hl
      rw [hu] at this
      exact this
    have hRe : R = exSol := by
      have := ex_solve (LLState.init (Fin 2))
      rw [hl'] at this
      cases this; rfl
    obtain ⟨v, u, -, -, -, hres, -⟩ := llSolve_ok hl
    refine ⟨w, w', none, List.ofFn fun i => wingRow exGeom 1 R i, ?_, by rw [← hRe]; exact hres⟩
    unfold distributions
    refine (bind_of_ok hm _).trans ?_
    rw [get_bind]
    have h2 : wingTable w'.st exGeom true 1 = .ok (some (List.ofFn fun i => wingRow exGeom 1 R i)) := by
      unfold wingTable
      rw [if_pos rfl, hres]
      simp only
      rw [if_neg one_ne_zero]
    rw [bind_of_ok ((lift_run _ _).trans (by rw [h2])), bind_of_ok (show (Act.lift (propTable w'.st false) : Act (World (glider bad)) _) w' = (.ok none, w') from rfl)]
    rfl

theorem exSol_alpha : exSol.alpha 0 < 0 := by
  have e : exSol.alpha 0 = arctan2 (dot (exSol.vi 0) (exGeom.S 0).un) (dot (exSol.vi 0) (exGeom.S 0).ua) := rfl
  have hv : exSol.vi 0 = ⟨-10, 0, exGamma * (2 / (3 * Real.pi))⟩ := ex_vInd 0
  have h1 : dot (exSol.vi 0) (exGeom.S 0).un = -(exGamma * (2 / (3 * Real.pi))) := by rw [hv]; simp [dot, exGeom, exSec]
  have h2 : dot (exSol.vi 0) (exGeom.S 0).ua = 10 := by rw [hv]; simp [dot, exGeom, exSec]
  rw [e, h1, h2, arctan2_pos _ (by norm_num)]
  have hg := exGamma_pos
  have hpi := Real.pi_pos
  have : 0 < exGamma * (2 / (3 * Real.pi)) := by positivity
  rw [← Real.arctan_zero]
  apply Real.arctan_strictMono
  apply div_neg_of_neg_of_pos <;> linarith

/-- **C80 fails**: the wing of the example.  The number under `Alpha(deg)` in its first row is not the incidence of the section in
degrees. -/
theorem C80_refuted : ∃ (w w' : World (glider bad)) (ps : Option PropDict) (t : List WingRow) (R : Sol (Fin 2)) (r : WingRow) (x α : ℝ),
    distributions exGeom true false (fun _ _ => 1) 1 1 1 1 bad ps w = (.ok (some t, none), w') ∧ w'.st.1.results = some R ∧
    t[0]? = some r ∧ IsIncidence (exGeom.S 0) (R.vi 0) α ∧ under "Alpha(deg)" wingCaptions r.columns = some x ∧ ¬ IsDegrees x α := by
  obtain ⟨-, w, w', ps, t, h, hres⟩ := glider_table bad
  obtain ⟨R, hR, -, hrow⟩ := C80_alpha h
  obtain ⟨r, x, α, h1, -, h3, h4, h5, h6⟩ := hrow 0
  refine ⟨w, w', ps, t, R, r, x, α, h, hR, h1, h3, h4, fun hd => ?_⟩
  have hα := h6.1 hd
  have hR' : R = exSol := by
    rw [hres] at hR; cases hR; rfl
  subst hR'
  obtain ⟨-, -, q, hq, q1, q2⟩ := h3
  have hv : exSol.vi 0 = ⟨-10, 0, exGamma * (2 / (3 * Real.pi))⟩ := ex_vInd 0
  rw [hα, Real.sin_zero, mul_zero, hv] at q2
  have hg := exGamma_pos
  have hpi := Real.pi_pos
  have : 0 < exGamma * (2 / (3 * Real.pi)) := by positivity
  have e : dot (⟨-10, 0, exGamma * (2 / (3 * Real.pi))⟩ : V3) (exGeom.S 0).un = -(exGamma * (2 / (3 * Real.pi))) := by simp [dot, exGeom, exSec]
  rw [e] at q2
  linarith

end Demo

end Verif
