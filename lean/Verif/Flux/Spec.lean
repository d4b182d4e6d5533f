import Verif.Flux.Model
/-
Specification notions for the advective fluxes: consistent cells, valid faces, the exact Euler flux.
-/
namespace PG.Flux
open V3

/-- The stored conserved variables of a cell agree with its primitives; density and sound speed are positive. -/
structure Cell.Consistent (a : Cell) : Prop where
  rho_pos : 0 < a.rho
  c_pos : 0 < a.c
  rhou : a.rhou = a.rho * a.u
  rhov : a.rhov = a.rho * a.v
  rhow : a.rhow = a.rho * a.w
  rhoE : a.rhoE = a.rhoe + 1/2 * a.rho * (a.u ^ 2 + a.v ^ 2 + a.w ^ 2)
  rhoY : ∀ n, a.rhoY n = a.rho * a.Y n

/-- area times normal is the area vector (proved for the computed metrics in C13_area_times_normal) -/
def FaceG.Valid (g : FaceG) : Prop := g.s = smul g.S g.n

/-- the same face seen with the opposite normal -/
def FaceG.rev (g : FaceG) : FaceG := ⟨-g.s, -g.n, g.S⟩

/-- Exact Euler flux of state `a` through the area vector `s`. -/
noncomputable def euler (a : Cell) (s : V3) : FluxV :=
  let U := a.u * s.x + a.v * s.y + a.w * s.z
  mk5 (a.rho * U) (a.rho * a.u * U + a.p * s.x) (a.rho * a.v * U + a.p * s.y) (a.rho * a.w * U + a.p * s.z)
    ((a.rhoE + a.p) * U) (fun n => a.rho * a.Y n * U)

/-- Velocity of `a` is along the normal (no tangential component). -/
def NoShear (a : Cell) (n : V3) : Prop := a.u = proj n a * n.x ∧ a.v = proj n a * n.y ∧ a.w = proj n a * n.z

/-- conserved variables of a cell, from its density, velocity, total energy and partial densities -/
def consv (a : Cell) : FluxV := mk5 a.rho (a.rho * a.u) (a.rho * a.v) (a.rho * a.w) a.rhoE a.rhoY

/-- physical flux of a state whose partial densities are `rhoY` (equal to `euler` when they are `rho*Y`) -/
noncomputable def eulerR (a : Cell) (s : V3) : FluxV :=
  let U := a.u * s.x + a.v * s.y + a.w * s.z
  mk5 (a.rho * U) (a.rho * a.u * U + a.p * s.x) (a.rho * a.v * U + a.p * s.y) (a.rho * a.w * U + a.p * s.z)
    ((a.rhoE + a.p) * U) (fun n => a.rhoY n * U)

/-- `F` is the mean of the physical fluxes of the states `a` (left) and `b` (right) through the face minus half the jump
    of the conserved variables times area and dissipation speed `lam` -/
def DissipatesWith (F : FluxV) (a b : Cell) (g : FaceG) (lam : ℝ) : Prop :=
  ∀ l, F l = 1/2 * (eulerR a g.s l + eulerR b g.s l) - 1/2 * lam * g.S * (consv b l - consv a l)

theorem mk5_ext {f h : FluxV} (h0 : f 0 = h 0) (h1 : f 1 = h 1) (h2 : f 2 = h 2) (h3 : f 3 = h 3) (h4 : f 4 = h 4)
    (h5 : ∀ n, f (n+5) = h (n+5)) : f = h := by
  funext l
  match l with
  | 0 => exact h0
  | 1 => exact h1
  | 2 => exact h2
  | 3 => exact h3
  | 4 => exact h4
  | n + 5 => exact h5 n

@[simp] theorem mk5_0 (m a b c e sp) : mk5 m a b c e sp 0 = m := rfl
@[simp] theorem mk5_1 (m a b c e sp) : mk5 m a b c e sp 1 = a := rfl
@[simp] theorem mk5_2 (m a b c e sp) : mk5 m a b c e sp 2 = b := rfl
@[simp] theorem mk5_3 (m a b c e sp) : mk5 m a b c e sp 3 = c := rfl
@[simp] theorem mk5_4 (m a b c e sp) : mk5 m a b c e sp 4 = e := rfl
@[simp] theorem mk5_5 (m a b c e sp n) : mk5 m a b c e sp (n+5) = sp n := rfl

theorem valid_x {g : FaceG} (h : g.Valid) : g.s.x = g.S * g.n.x := congrArg V3.x h
theorem valid_y {g : FaceG} (h : g.Valid) : g.s.y = g.S * g.n.y := congrArg V3.y h
theorem valid_z {g : FaceG} (h : g.Valid) : g.s.z = g.S * g.n.z := congrArg V3.z h

end PG.Flux
