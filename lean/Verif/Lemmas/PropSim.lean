import Verif.Lemmas.PropMirror
import Verif.Thm.PropScaling
import Verif.Spec.PropSim

/-! Helper lemmas: propellers that are larger, run faster or in denser air, or belong to an aircraft with another CG. -/

namespace Verif
open V3 Act

/-- length factor, speed factor, density factor, displacement of the CG, displacement of everything -/
structure Scl where
  l : ℝ
  k : ℝ
  m : ℝ
  e : V3
  hl : 0 < l
  hk : 0 < k
  t : V3

namespace Scl
/-- factor of the forces -/
noncomputable def a (s : Scl) : ℝ := s.m * s.k ^ 2 * s.l ^ 2
/-- factor of the rotation rates -/
noncomputable def r (s : Scl) : ℝ := s.k / s.l
theorem r_pos (s : Scl) : 0 < s.r := div_pos s.hk s.hl
theorem r_mul (s : Scl) : s.r * s.l = s.k := by unfold r; have := s.hl.ne'; field_simp
end Scl

/-- the loads of the larger aircraft in the faster flow, about the other CG -/
noncomputable def Loads.sim (s : Scl) (t : Loads) : Loads :=
  ⟨s.a * t.FL, s.a * t.FD, s.a * t.FS, s.a * t.FX, s.a * t.FY, s.a * t.FZ,
    s.a * s.l * t.MX - s.a * (cross s.e t.F).x, s.a * s.l * t.MY - s.a * (cross s.e t.F).y, s.a * s.l * t.MZ - s.a * (cross s.e t.F).z⟩

/-- `M'` is the larger propeller on the aircraft with the other CG -/
structure SimM {ι ι' : Type} (s : Scl) (M : PropM ι) (M' : PropM ι') : Prop where
  nodes : M'.nodes = M.nodes
  d : M'.d = s.l * M.d
  blades : M'.blades = M.blades
  stn : M'.stn = fun i => (M.stn i).scale s.l
  motor : M'.motor = M.motor
  units : M'.units = M.units
  pos : M'.geom.position = s.l • M.geom.position + s.t
  fwd : M'.fwd = M.fwd
  rot : M'.rot = M.rot
  cg : M'.cg = s.l • M.cg + s.t + s.e

section
variable {ι ι' : Type} {s : Scl} {M : PropM ι} {M' : PropM ι'} (h : SimM s M M') (simps : List ℝ → List ℝ → ℝ) (fuel : ℕ)
include h

theorem SimM.getCL : getCL M' = getCL M := by
  funext a; unfold Verif.getCL; rw [h.nodes, h.stn]; rfl

theorem SimM.getCD : getCD M' = getCD M := by
  funext a b; unfold Verif.getCD; rw [h.nodes, h.stn]; rfl

theorem SimM.getCLa : getCLa M' = getCLa M := by
  funext a; unfold Verif.getCLa; rw [h.getCL]

theorem SimM.goldstein : goldstein M' = goldstein M := by
  funext a; unfold Verif.goldstein; rw [h.nodes, h.stn, h.blades]; rfl

theorem SimM.eiFunction : eiFunction M' = eiFunction M := by
  funext a b; unfold Verif.eiFunction; rw [h.getCL, h.goldstein, h.nodes, h.stn]; rfl

theorem SimM.eiLoop (einf : ℕ → ℝ) (f : ℕ) : ∀ k x0 x1 x2 y0 y1,
    eiLoop M' einf f k x0 x1 x2 y0 y1 = eiLoop M einf f k x0 x1 x2 y0 y1 := by
  induction f with
  | zero => intros; rfl
  | succ f ih =>
    intro k x0 x1 x2 y0 y1
    unfold Verif.eiLoop
    simp only [h.nodes, h.stn, h.eiFunction, ih, Stn.scale]

theorem SimM.findEi : findEi M' fuel = findEi M fuel := by
  funext a; unfold Verif.findEi; rw [h.eiFunction]
  simp only [h.eiLoop]

theorem SimM.overBlade : overBlade M' simps = overBlade M simps := by
  funext a; unfold Verif.overBlade; rw [h.nodes, h.stn]; rfl

theorem SimM.coefsAt : coefsAt M' simps = coefsAt M simps := by
  funext a b; unfold Verif.coefsAt
  simp only [h.getCL, h.getCD, h.getCLa, h.stn, h.overBlade, Stn.scale]

theorem SimM.findCoefs : findCoefs M' simps fuel = findCoefs M simps fuel := by
  funext J; unfold Verif.findCoefs
  simp only [h.findEi, h.coefsAt, h.nodes, h.stn, h.goldstein, Stn.scale]

end

/-- the result of the larger propeller -/
noncomputable def PropOut.sim (s : Scl) (o : PropOut) : PropOut :=
  { o with F := s.a • o.F, M := (s.a * s.l) • o.M - s.a • cross s.e o.F, T := s.a * o.T, l := s.a * s.l * o.l, n := s.r * o.n }

theorem forcesOf_sim {ι ι' : Type} {s : Scl} {M : PropM ι} {M' : PropM ι'} (h : SimM s M M') {fl fl' : PFlow} 
    (hr : fl'.rho = s.m * fl.rho) (hu : fl'.u = fl.u) (n : ℝ) (c : Coefs) :
    forcesOf M' fl' (s.r * n) c = (forcesOf M fl n c).map (PropOut.sim s) := by
  have ea : ∀ x : ℝ, s.m * fl.rho * (s.r * n * (s.r * n)) * (s.l * M.d) ^ 4 * x = s.a * (fl.rho * (n * n) * M.d ^ 4 * x) := by
    intro x
    have := s.r_mul
    unfold Scl.a
    rw [← this]
    ring
  have eb : ∀ x : ℝ, s.m * fl.rho * (s.r * n * (s.r * n)) * (s.l * M.d) ^ 5 * x = s.a * s.l * (fl.rho * (n * n) * M.d ^ 5 * x) := by
    intro x
    have := s.r_mul
    unfold Scl.a
    rw [← this]
    ring
  unfold forcesOf
  simp only [bind, Except.bind, hr, h.d, h.pos, h.cg, h.fwd, h.rot, hu, ea, eb]
  generalize vecAngle M.fwd (-fl.u) = an
  generalize cross (cross (-fl.u) M.fwd) M.fwd = D
  generalize fl.rho * (n * n) * M.d ^ 4 * c.CT = T
  generalize fl.rho * (n * n) * M.d ^ 5 * c.Cl = L
  generalize fl.rho * (n * n) * M.d ^ 4 * c.CNa = N
  generalize fl.rho * (n * n) * M.d ^ 5 * c.Cna = N2
  split_ifs with h1 h2
  · simp only [pure, Except.pure, Except.map, Except.ok.injEq, PropOut.sim, PropOut.mk.injEq, and_true, true_and]
    refine ⟨?_, ?_, ?_⟩
    · ext <;> simp <;> ring
    · ext <;> simp <;> ring
    · ring
  · rfl
  · simp only [pure, Except.pure, Except.map, Except.ok.injEq, PropOut.sim, PropOut.mk.injEq, and_true, true_and]
    refine ⟨?_, ?_, ?_⟩
    · ext <;> simp <;> ring
    · ext <;> simp <;> ring
    · ring

theorem nrm_smul_pos {k : ℝ} (hk : 0 < k) (v : V3) : nrm (k • v) = k * nrm v := by
  unfold nrm dot
  rw [show (k • v).x * (k • v).x + (k • v).y * (k • v).y + (k • v).z * (k • v).z = k ^ 2 * (v.x * v.x + v.y * v.y + v.z * v.z) by
    simp; ring, Real.sqrt_mul (sq_nonneg k), Real.sqrt_sq hk.le]

/-- interpolation in other units -/
theorem pwl_units {a b : ℝ} (ha : 0 < a) (l : List (ℝ × ℝ)) (x : ℝ) :
    pwl (l.map fun p => (a * p.1, b * p.2)) (a * x) = b * pwl l x := by
  induction l with
  | nil => simp [pwl]
  | cons p t ih =>
    rcases t with _ | ⟨q, t⟩
    · simp [pwl]
    · simp only [List.map_cons, pwl, mul_le_mul_iff_right₀ ha, List.map_eq_nil_iff]
      simp only [List.map_cons] at ih
      split_ifs
      · rw [show a * x - a * p.1 = a * (x - p.1) by ring, show a * q.1 - a * p.1 = a * (q.1 - p.1) by ring,
          show b * q.2 - b * p.2 = b * (q.2 - p.2) by ring]
        have := ha.ne'
        rw [mul_div_mul_comm]
        field_simp
      · exact ih

theorem npInterp_units {a b : ℝ} (ha : 0 < a) (N : ℕ) (xp fp : ℕ → ℝ) (x : ℝ) :
    npInterp N (fun i => a * xp i) (fun i => b * fp i) (a * x) = b * npInterp N xp fp x := by
  unfold npInterp
  simp only [mul_lt_mul_iff_right₀ ha]
  split_ifs
  · simp
  · rw [← pwl_units ha, List.map_map]; rfl

section
variable {ι ι' : Type} {s : Scl} {M : PropM ι} {M' : PropM ι'} (h : SimM s M M') (V n : ℝ) (c : Coefs) (p : V3)
include h

theorem SimM.streamT : streamT M' (s.l • p + s.t) = s.l * streamT M p := by
  unfold Verif.streamT; rw [h.pos, h.fwd]; simp [dot]; ring

theorem SimM.offAxis : offAxis M' (s.l • p + s.t) = s.l • offAxis M p := by
  unfold Verif.offAxis; rw [h.pos, h.fwd, h.streamT]; ext <;> simp <;> ring

theorem SimM.axisDist : axisDist M' (s.l • p + s.t) = s.l * axisDist M p := by
  unfold Verif.axisDist; rw [h.offAxis, nrm_smul_pos s.hl]

theorem SimM.tangentAt : tangentAt M' (s.l • p + s.t) = s.l • tangentAt M p := by
  unfold Verif.tangentAt; rw [h.offAxis, h.fwd]; ext <;> simp [cross] <;> ring

theorem SimM.inStream : InStream M' (s.l • p + s.t) ↔ InStream M p := by
  unfold Verif.InStream
  rw [h.streamT, h.axisDist, h.d, abs_mul, abs_of_pos s.hl, mul_div_assoc, mul_le_mul_iff_right₀ s.hl, mul_neg_iff]
  have := s.hl
  constructor
  · rintro ⟨h1, h2 | h2⟩
    · exact ⟨h1, h2.2⟩
    · linarith [h2.1]
  · rintro ⟨h1, h2⟩
    exact ⟨h1, .inl ⟨this, h2⟩⟩

theorem SimM.viAt : viAt M' (s.r * n) c = fun i => s.k * viAt M n c i := by
  funext i; unfold Verif.viAt; rw [h.stn]; simp only [Stn.scale]; rw [← s.r_mul]; ring
theorem SimM.vxiAt : vxiAt M' (s.r * n) c = fun i => s.k * vxiAt M n c i := by
  funext i; unfold Verif.vxiAt; rw [h.viAt]; ring
theorem SimM.vtiAt : vtiAt M' (s.r * n) c = fun i => s.k * vtiAt M n c i := by
  funext i; unfold Verif.vtiAt; rw [h.viAt]; ring
theorem SimM.stoneKd (x : ℝ) : stoneKd M' (s.l * x) = stoneKd M x := by
  unfold Verif.stoneKd
  rw [h.d, show s.l * x * (s.l * x) + s.l * M.d / 2 * (s.l * M.d / 2) = s.l ^ 2 * (x * x + M.d / 2 * (M.d / 2)) by ring,
    Real.sqrt_mul (sq_nonneg _), Real.sqrt_sq s.hl.le, mul_div_mul_left _ _ s.hl.ne']
theorem SimM.vx2 : vx2 M' (s.r * n) c = fun i => s.k * vx2 M n c i := by
  funext i; unfold Verif.vx2; rw [h.vxiAt]; ring
theorem SimM.stoneKv (x : ℝ) : stoneKv M' (s.k * V) (s.r * n) c (s.l * x) = stoneKv M V n c x := by
  funext i; unfold Verif.stoneKv; rw [h.vx2, h.stoneKd]
  rw [show 2 * (s.k * V) + s.k * Verif.vx2 M n c i = s.k * (2 * V + Verif.vx2 M n c i) by ring,
    show 2 * (s.k * V) + Verif.stoneKd M x * (s.k * Verif.vx2 M n c i) = s.k * (2 * V + Verif.stoneKd M x * Verif.vx2 M n c i) by ring,
    mul_div_mul_left _ _ s.hk.ne']
theorem SimM.rPrime (x : ℝ) : rPrime M' (s.k * V) (s.r * n) c (s.l * x) = fun i => s.l * rPrime M V n c x i := by
  funext i
  induction i with
  | zero => unfold Verif.rPrime; rw [h.stn]; rfl
  | succ i ih =>
    unfold Verif.rPrime; rw [ih, h.stn, h.stoneKv]
    simp only [Stn.scale]
    rw [← Real.sqrt_sq s.hl.le, ← Real.sqrt_mul (sq_nonneg _), Real.sqrt_sq s.hl.le]
    congr 1
    ring
theorem SimM.vxPrime (x : ℝ) : vxPrime M' (s.r * n) c (s.l * x) = fun i => s.k * vxPrime M n c x i := by
  funext i; unfold Verif.vxPrime; rw [h.vxiAt, h.stoneKd]; ring
theorem SimM.vtPrime (x : ℝ) : vtPrime M' (s.k * V) (s.r * n) c (s.l * x) = fun i => s.k * vtPrime M V n c x i := by
  have hl := s.hl.ne'
  have e1 : ∀ a b d : ℝ, 2 * (s.k * a) * (s.l * b) / (s.l * d) = s.k * (2 * a * b / d) := by
    intro a b d
    rw [show 2 * (s.k * a) * (s.l * b) = s.l * (s.k * (2 * a * b)) by ring, mul_div_mul_left _ _ hl, mul_div_assoc]
  have e2 : ∀ a b d : ℝ, s.k * a / (s.l * b) * (s.l * d) = s.k * (a / b * d) := by
    intro a b d
    rw [div_mul_eq_mul_div, show s.k * a * (s.l * d) = s.l * (s.k * (a * d)) by ring, mul_div_mul_left _ _ hl]
    ring
  funext i; unfold Verif.vtPrime; simp only [h.vtiAt, h.rPrime, h.stn, h.nodes, Stn.scale, e1, e2]
  split_ifs <;> rfl
theorem SimM.stoneFinite (x : ℝ) : StoneFinite M' (s.k * V) (s.r * n) c (s.l * x) ↔ StoneFinite M V n c x := by
  have hl := s.hl
  have e1 : ∀ a b : ℝ, 2 * (s.k * V) + a * (s.k * b) ≠ 0 ↔ 2 * V + a * b ≠ 0 := by
    intro a b
    rw [show 2 * (s.k * V) + a * (s.k * b) = s.k * (2 * V + a * b) by ring, mul_ne_zero_iff]
    exact and_iff_right s.hk.ne'
  have e2 : ∀ a b d e : ℝ, 0 ≤ s.l * a * (s.l * a) + (s.l * b * (s.l * b) - s.l * d * (s.l * d)) * e ↔ 0 ≤ a * a + (b * b - d * d) * e := by
    intro a b d e
    rw [show s.l * a * (s.l * a) + (s.l * b * (s.l * b) - s.l * d * (s.l * d)) * e = s.l ^ 2 * (a * a + (b * b - d * d) * e) by ring]
    exact mul_nonneg_iff_of_pos_left (by positivity)
  unfold StoneFinite; simp only [h.nodes, h.stn, h.rPrime, h.stoneKv, h.stoneKd, h.vx2, Stn.scale, e1, e2]
  simp only [ne_eq, mul_eq_zero, hl.ne', false_or]

theorem propVel_sim : propVel M' (s.k * V) (s.r * n) c (s.l • p + s.t) = (propVel M V n c p).map (s.k • ·) := by
  have hl := s.hl
  unfold propVel
  by_cases h1 : InStream M p
  · rw [if_pos h1, if_pos (h.inStream p |>.2 h1)]
    have hneg : -(s.l * Verif.streamT M p) = s.l * -Verif.streamT M p := by ring
    have hs : StoneFinite M' (s.k * V) (s.r * n) c (-streamT M' (s.l • p + s.t)) ↔ StoneFinite M V n c (-streamT M p) := by
      rw [h.streamT, hneg, h.stoneFinite]
    by_cases h2 : ¬ StoneFinite M V n c (-streamT M p)
    · rw [if_pos h2, if_pos (show ¬ _ from fun q => h2 (hs.1 q))]
      rfl
    · rw [if_neg h2, if_neg (show ¬ ¬ _ from fun q => h2 fun q' => q (hs.2 q'))]
      have hz : nrm (Verif.tangentAt M' (s.l • p + s.t)) = 0 ↔ nrm (Verif.tangentAt M p) = 0 := by
        rw [h.tangentAt, nrm_smul_pos hl, mul_eq_zero]
        simp [hl.ne']
      by_cases h3 : nrm (Verif.tangentAt M p) = 0
      · rw [if_pos h3, if_pos (hz.2 h3)]; rfl
      · rw [if_neg h3, if_neg (fun q => h3 (hz.1 q))]
        simp only [h.streamT, hneg, h.axisDist, h.tangentAt, h.rPrime, h.vxPrime, h.vtPrime, h.nodes, h.fwd, h.rot, nrm_smul_pos hl,
          npInterp_units hl]
        simp only [Except.map, Except.ok.injEq]
        generalize npInterp _ _ _ _ = a
        generalize npInterp _ _ _ _ = b
        generalize nrm (Verif.tangentAt M p) = N at h3
        have hl' := hl.ne'
        refine V3.ext ?_ ?_ ?_ <;> simp <;> field_simp
  · rw [if_neg h1, if_neg (fun q => h1 (h.inStream p |>.1 q))]
    simp [Except.map]

end

/-! ### The operating state -/

theorem dictGet_mapKey {α β : Type*} (f : String → α → β) (d : List (String × α)) (k : String) :
    dictGet (d.map fun kv => (kv.1, f kv.1 kv.2)) k = (dictGet d k).map (f k) := by
  induction d with
  | nil => rfl
  | cons a t ih =>
    simp only [List.map_cons, dictGet]
    split_ifs with h
    · subst h; rfl
    · exact ih

theorem dictGet_entry {α : Type*} {d : List (String × α)} {k : String} {v : α} (h : dictGet d k = some v) : (k, v) ∈ d := by
  induction d with
  | nil => cases h
  | cons a t ih =>
    simp only [dictGet] at h
    split_ifs at h with h1
    · cases h; subst h1; simp
    · exact List.mem_cons_of_mem _ (ih h)

theorem dictGet_absent {α : Type*} {d : List (String × α)} {k : String} (h : ∀ kv ∈ d, kv.1 ≠ k) : dictGet d k = none := by
  cases hd : dictGet d k with
  | none => rfl
  | some v => exact absurd rfl (h _ (dictGet_entry hd))

theorem scaleRates_get (r : ℝ) (ps : PropDict) (key : String) :
    dictGet (ps.scaleRates r) key = (dictGet ps key).map (PSVal.scaleRate r key) :=
  dictGet_mapKey (fun key (v : PSVal) => v.scaleRate r key) ps key

theorem scaleRates_flat (r : ℝ) (d : List (String × ℝ)) :
    PropDict.scaleRates r (d.map fun kv => (kv.1, .num kv.2)) = (scaleRate r d).map fun kv => (kv.1, .num kv.2) := by
  simp [PropDict.scaleRates, scaleRate, PSVal.scaleRate]

theorem localPS_rates {r : ℝ} (hr : r ≠ 0) (ps : PropDict) (name : String) :
    localPS (ps.scaleRates r) name = (localPS ps name).map (PropDict.scaleRates r) := by
  unfold localPS
  have h0 : ps.scaleRates r = [] ↔ ps = [] := by simp [PropDict.scaleRates]
  by_cases h : ps = []
  · subst h; rfl
  · rw [if_neg h, if_neg (fun q => h (h0.1 q)), scaleRates_get]
    rcases dictGet ps name with _ | x | d
    · rfl
    · simp only [Option.map_some, PSVal.scaleRate]
      have : (if name = "rot_per_sec" then r * x else x) = 0 ↔ x = 0 := by
        split_ifs
        · simp [hr]
        · rfl
      by_cases hx : x = 0
      · rw [if_pos hx, if_pos (this.2 hx)]; rfl
      · rw [if_neg hx, if_neg (fun q => hx (this.1 q))]; rfl
    · simp only [Option.map_some, Except.map, PSVal.scaleRate]
      rw [scaleRates_flat]

/-- the state of one propeller mentions no power -/
def Powerless (s : PropDict) : Prop := dictGet s "brake_power" = none ∧ dictGet s "electric_throttle" = none

theorem localPS_powerless {ps : PropDict} (h : ps.NoPower) {name : String} {s : PropDict} (hs : localPS ps name = .ok s) : Powerless s := by
  unfold localPS at hs
  split_ifs at hs with h0
  · cases hs; exact ⟨rfl, rfl⟩
  · cases hd : dictGet ps name with
    | none =>
      rw [hd] at hs; cases hs
      exact ⟨dictGet_absent fun kv hk => (h kv hk).1, dictGet_absent fun kv hk => (h kv hk).2.1⟩
    | some v =>
      rw [hd] at hs
      rcases v with x | d
      · simp only at hs
        split_ifs at hs
        cases hs; exact ⟨rfl, rfl⟩
      · cases hs
        have := (h _ (dictGet_entry hd)).2.2 d rfl
        constructor <;> refine dictGet_absent fun kv hk => ?_ <;> simp only [List.mem_map] at hk <;> obtain ⟨a, ha, rfl⟩ := hk
        exacts [(this a ha).1, (this a ha).2]

/-- the two states differ in the rotation rate only -/
def SameButRate (st st' : PropSt) : Prop := st' = { st with rps := st'.rps }

section
variable {ι ι' : Type} {s : Scl} {M : PropM ι} {M' : PropM ι'} (h : SimM s M M') (simps : List ℝ → List ℝ → ℝ) (fuel : ℕ)
include h

theorem setPropDict_sim (V : ℝ) (pd : PropDict) (hp : Powerless pd) {st st' : PropSt} (hst : SameButRate st st') :
    Outcome (fun d d' => d' = d ∧ ∃ J, d = .atJ J) (setPropDict M V pd st).1 (setPropDict M' (s.k * V) (pd.scaleRates s.r) st').1 ∧
    SameButRate (setPropDict M V pd st).2 (setPropDict M' (s.k * V) (pd.scaleRates s.r) st').2 ∧
    ∀ dr, (setPropDict M V pd st).1 = .ok dr →
      (setPropDict M' (s.k * V) (pd.scaleRates s.r) st').2.rps = s.r * (setPropDict M V pd st).2.rps := by
  have hl := s.hl.ne'
  have hk := s.hk.ne'
  have hr := s.r_pos.ne'
  have h0 : pd.scaleRates s.r = [] ↔ pd = [] := by simp [PropDict.scaleRates]
  have e : ∀ x : ℝ, s.k * V / (s.l * M.d * x) = s.r * (V / (M.d * x)) := by
    intro x
    unfold Scl.r
    rw [mul_assoc, mul_div_mul_comm]
  have hset : ∀ n : ℝ, SameButRate { st with rps := n } { st' with rps := s.r * n } := by
    intro n
    unfold SameButRate at hst ⊢
    rw [hst]
  have gJ := scaleRates_get s.r pd "J"
  have gn := scaleRates_get s.r pd "rot_per_sec"
  have rJ : psReal (pd.scaleRates s.r) "J" = psReal pd "J" := by
    unfold psReal
    rw [gJ]
    rcases dictGet pd "J" with _ | _ | _ <;> rfl
  have rn : psReal (pd.scaleRates s.r) "rot_per_sec" = (psReal pd "rot_per_sec").map (s.r * ·) := by
    unfold psReal
    rw [gn]
    rcases dictGet pd "rot_per_sec" with _ | _ | _ <;> rfl
  have iJ : (dictGet (pd.scaleRates s.r) "J").isSome = (dictGet pd "J").isSome := by rw [gJ, Option.isSome_map]
  have iN : (dictGet (pd.scaleRates s.r) "rot_per_sec").isSome = (dictGet pd "rot_per_sec").isSome := by rw [gn, Option.isSome_map]
  have ib : dictGet (pd.scaleRates s.r) "brake_power" = none := by rw [scaleRates_get, hp.1]; rfl
  have it : dictGet (pd.scaleRates s.r) "electric_throttle" = none := by rw [scaleRates_get, hp.2]; rfl
  unfold setPropDict
  by_cases hpd : pd = []
  · rw [if_pos hpd, if_pos (h0.2 hpd)]
    refine ⟨⟨rfl, _, rfl⟩, ?_, fun _ _ => ?_⟩
    · show SameButRate { st with rps := _ } { st' with rps := _ }
      rw [h.d, e]; exact hset _
    · show s.k * V / (M'.d * 0.5) = _
      rw [h.d, e]; rfl
  · rw [if_neg hpd, if_neg (fun q => hpd (h0.1 q)), iJ, rJ, iN, rn, ib, it, hp.1, hp.2]
    by_cases h1 : (dictGet pd "J").isSome = true
    · rw [if_pos h1, if_pos h1]
      rcases psReal pd "J" with er | J
      · exact ⟨rfl, hst, fun _ q => by cases q⟩
      · simp only [lift_ok_bind]
        have hz : (J = 0 ∨ s.k * V = 0) ↔ (J = 0 ∨ V = 0) := by simp [hk]
        by_cases h2 : J = 0 ∨ V = 0
        · rw [if_pos h2, if_pos (hz.2 h2)]
          by_cases h3 : (dictGet pd "rot_per_sec").isSome = true
          · rw [if_pos h3, if_pos h3]
            rcases psReal pd "rot_per_sec" with er | n
            · exact ⟨rfl, hst, fun _ q => by cases q⟩
            · exact ⟨⟨rfl, _, rfl⟩, hset n, fun _ _ => rfl⟩
          · rw [if_neg h3, if_neg h3]
            exact ⟨rfl, hst, fun _ q => by cases q⟩
        · rw [if_neg h2, if_neg (fun q => h2 (hz.1 q))]
          refine ⟨⟨rfl, _, rfl⟩, ?_, fun _ _ => ?_⟩
          · show SameButRate { st with rps := _ } { st' with rps := _ }
            rw [h.d, e]; exact hset _
          · show s.k * V / (M'.d * J) = _
            rw [h.d, e]; rfl
    · rw [if_neg h1, if_neg h1]
      by_cases h3 : (dictGet pd "rot_per_sec").isSome = true
      · rw [if_pos h3, if_pos h3]
        rcases psReal pd "rot_per_sec" with er | n
        · exact ⟨rfl, hst, fun _ q => by cases q⟩
        · simp only [Except.map, lift_ok_bind]
          have e1 : s.r * n * M'.d = s.k * (n * M.d) := by rw [h.d, ← s.r_mul]; ring
          have e2 : s.k * V / (s.k * (n * M.d)) = V / (n * M.d) := mul_div_mul_left _ _ hk
          have e3 : s.k * (n * M.d) = 0 ↔ n * M.d = 0 := by rw [mul_eq_zero]; simp [hk]
          rw [e1, e2]
          by_cases h4 : n * M.d = 0
          · rw [if_pos h4, if_pos (e3.2 h4)]
            exact ⟨rfl, hset n, fun _ q => by cases q⟩
          · rw [if_neg h4, if_neg (fun q => h4 (e3.1 q))]
            exact ⟨⟨rfl, _, rfl⟩, hset n, fun _ _ => rfl⟩
      · rw [if_neg h3, if_neg h3]
        exact ⟨rfl, hst, fun _ q => by cases q⟩

theorem calcForces_sim {fl fl' : PFlow} (hr : fl'.rho = s.m * fl.rho) (hu : fl'.u = fl.u) (J : ℝ) {st st' : PropSt}
    (hst : SameButRate st st') (hn : st'.rps = s.r * st.rps) :
    Outcome (fun o o' => o' = o.sim s) (calcForces M simps fuel fl (.atJ J) st).1 (calcForces M' simps fuel fl' (.atJ J) st').1 ∧
    SameButRate (calcForces M simps fuel fl (.atJ J) st).2 (calcForces M' simps fuel fl' (.atJ J) st').2 := by
  have key := IgnoresRps.findCoefs M simps fuel J st st'.rps
  have keep := IgnoresRps.findCoefs M simps fuel J st st.rps
  have hst' : ({ st with rps := st'.rps } : PropSt) = st' := hst.symm
  rw [hst'] at key
  have hst0 : ({ st with rps := st.rps } : PropSt) = st := rfl
  rw [hst0] at keep
  unfold calcForces driveCoefs
  simp only
  rw [h.findCoefs simps fuel, h.nodes, bind_def, bind_def, key]
  rcases hA : findCoefs M simps fuel J st with ⟨e | c, s1⟩
  · exact ⟨rfl, rfl⟩
  · simp only
    rw [hA] at keep
    have hk : s1.rps = st.rps := by
      have := congrArg (fun x : Except PyErr Coefs × PropSt => x.2.rps) keep
      simpa using this
    split_ifs
    · exact ⟨rfl, rfl⟩
    · rw [get_bind, get_bind]
      unfold Act.lift
      simp only
      rw [hn, hk, forcesOf_sim h hr hu]
      refine ⟨?_, rfl⟩
      cases forcesOf M fl st.rps c with
      | error e => exact rfl
      | ok o => exact rfl

end

/-- what a propeller sees of the faster flow -/
structure FlowSim {ι ι' : Type} (s : Scl) (d : AeroDict ι) (d' : AeroDict ι') : Prop where
  given : d.truthy = true
  given' : d'.truthy = true
  V : d'.Vmag = d.Vmag.map (s.k * ·)
  rho : d'.rho = d.rho.map (s.m * ·)
  alpha : d'.alpha.getD 0 = d.alpha.getD 0
  beta : d'.beta.getD 0 = d.beta.getD 0

/-- the faster flow -/
def PFlow.sim (s : Scl) (fl : PFlow) : PFlow := ⟨s.m * fl.rho, s.k * fl.V, fl.u⟩

theorem propFlow_sim {ι ι' : Type} {s : Scl} {d : AeroDict ι} {d' : AeroDict ι'} (h : FlowSim s d d') :
    propFlow (some d') = (propFlow (some d)).map (PFlow.sim s) := by
  unfold propFlow
  simp only [h.given, h.given', if_true, h.V, h.rho, h.alpha, h.beta]
  cases freestream 1 (d.alpha.getD 0) (d.beta.getD 0) with
  | none => rfl
  | some u =>
    cases d.Vmag with
    | none => rfl
    | some V =>
      cases d.rho with
      | none => rfl
      | some r => rfl

theorem runProp_sim {ι ι' : Type} {s : Scl} {M : PropM ι} {M' : PropM ι'} (h : SimM s M M') (simps : List ℝ → List ℝ → ℝ) (fuel : ℕ)
    {d : AeroDict ι} {d' : AeroDict ι'} (hd : FlowSim s d d') (pd : PropDict) (hp : Powerless pd) {st st' : PropSt} (hst : SameButRate st st') :
    Outcome (fun o o' => o' = o.sim s) (runProp simps fuel M (some d) pd st).1 (runProp simps fuel M' (some d') (pd.scaleRates s.r) st').1 ∧
    SameButRate (runProp simps fuel M (some d) pd st).2 (runProp simps fuel M' (some d') (pd.scaleRates s.r) st').2 := by
  unfold runProp
  rw [propFlow_sim hd]
  cases propFlow (some d) with
  | error e => exact ⟨rfl, hst⟩
  | ok fl =>
    simp only [Except.map, lift_ok_bind]
    have hV : (fl.sim s).V = s.k * fl.V := rfl
    rw [hV, bind_def, bind_def]
    obtain ⟨k1, k2, k3⟩ := setPropDict_sim h fl.V pd hp hst
    revert k1 k2 k3
    generalize setPropDict M fl.V pd st = A
    generalize setPropDict M' _ _ st' = A'
    intro k1 k2 k3
    rcases A with ⟨e | dr, s1⟩ <;> rcases A' with ⟨e' | dr', s1'⟩ <;> simp only [Outcome] at k1
    · exact ⟨k1, k2⟩
    · obtain ⟨rfl, J, rfl⟩ := k1
      exact calcForces_sim h simps fuel (fl := fl) (fl' := fl.sim s) rfl rfl J k2 (k3 _ rfl)

/-- the same flow, the same propeller, another CG: any operating state -/
theorem runProp_cg {ι ι' : Type} {s : Scl} (h1 : s.l = 1) (h2 : s.k = 1) (h3 : s.m = 1) {M : PropM ι} {M' : PropM ι'} (h : SimM s M M')
    (simps : List ℝ → List ℝ → ℝ) (fuel : ℕ) {d : AeroDict ι} {d' : AeroDict ι'} (hd : FlowSim s d d') (pd : PropDict) (st : PropSt) :
    Outcome (fun o o' => o' = o.sim s) (runProp simps fuel M (some d) pd st).1 (runProp simps fuel M' (some d') pd st).1 ∧
    (runProp simps fuel M' (some d') pd st).2 = (runProp simps fuel M (some d) pd st).2 := by
  have hd1 : M'.d = M.d := by rw [h.d, h1, one_mul]
  have hr1 : s.r = 1 := by unfold Scl.r; rw [h1, h2]; norm_num
  have hs : setPropDict M' = setPropDict M := by funext V s; unfold setPropDict; simp only [hd1]
  have hc : coefsAtRate M' simps fuel = coefsAtRate M simps fuel := by
    funext V n; unfold coefsAtRate; rw [h.findCoefs, hd1]
  have hdc : ∀ (fl fl' : PFlow) (dr : Drive), fl'.V = fl.V → fl'.rho = fl.rho → driveCoefs M' simps fuel fl' dr = driveCoefs M simps fuel fl dr := by
    intro fl fl' dr hV hr
    have h1 : ∀ P, powerDiff M' simps fuel fl' P = powerDiff M simps fuel fl P := by
      intro P; funext n; unfold powerDiff; rw [hc, hd1, hV, hr]
    have h2 : ∀ m t, torqueDiff M' simps fuel fl' m t = torqueDiff M simps fuel fl m t := by
      intro m t; funext n; unfold torqueDiff; rw [hc, hd1, h.units, hV, hr]
    unfold driveCoefs
    cases dr with
    | atJ J => simp only [h.findCoefs]
    | power P => simp only [h1, hd1]
    | motor t =>
      simp only [h.motor]
      cases M.motor with
      | none => rfl
      | some m => simp only [h2, hd1]
  unfold runProp
  rw [propFlow_sim hd]
  cases propFlow (some d) with
  | error e => exact ⟨rfl, rfl⟩
  | ok fl =>
    simp only [Except.map, lift_ok_bind]
    have hV : (fl.sim s).V = fl.V := by show s.k * fl.V = _; rw [h2, one_mul]
    have hR : (fl.sim s).rho = fl.rho := by show s.m * fl.rho = _; rw [h3, one_mul]
    rw [hV, hs, bind_def, bind_def]
    rcases setPropDict M fl.V pd st with ⟨e | dr, s1⟩
    · exact ⟨rfl, rfl⟩
    · simp only
      unfold calcForces
      rw [hdc fl (fl.sim s) dr hV hR, h.nodes, bind_def, bind_def]
      rcases driveCoefs M simps fuel fl dr s1 with ⟨e | c, s2⟩
      · exact ⟨rfl, rfl⟩
      · simp only
        split_ifs
        · exact ⟨rfl, rfl⟩
        · rw [get_bind, get_bind]
          unfold Act.lift
          have := forcesOf_sim h (fl := fl) (fl' := fl.sim s) rfl rfl s2.rps c
          rw [hr1, one_mul] at this
          rw [this]
          refine ⟨?_, rfl⟩
          cases forcesOf M fl s2.rps c with
          | error e => exact rfl
          | ok o => exact rfl

end Verif
