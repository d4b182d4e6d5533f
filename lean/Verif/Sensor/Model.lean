import Verif.Base.Vec
import Mathlib.Analysis.Real.Sqrt
/-
Model of the shock sensors /repo/src/compute/switches/{jameson,vanAlbada,vanLeer}.cpp and of the viscous sponge
/repo/src/compute/utils/viscousSponge.cpp. Pressure is a function of the three cell indices, doubles are reals; a division
by zero yields `none` (the code stores a NaN or an infinity).
-/
noncomputable section
namespace PG.Sensor

/-- pressure array `b.q(·,·,·,0)` -/
abbrev P3 := ℤ → ℤ → ℤ → ℝ

/-- the two neighbours of cell `(i,j,k)` in direction 0, 1 or 2: `pim/pip`, `pjm/pjp`, `pkm/pkp`
    (jameson.cpp:17-24, vanAlbada.cpp:17-24, vanLeer.cpp:19-26) -/
def nbr (p : P3) (i j k : ℤ) : ℕ → ℝ × ℝ
  | 0 => (p (i-1) j k, p (i+1) j k)
  | 1 => (p i (j-1) k, p i (j+1) k)
  | _ => (p i j (k-1), p i j (k+1))

/-- checked division -/
def cdiv (a b : ℝ) : Option ℝ := if b = 0 then none else some (a / b)

/-- one direction of jameson.cpp:26-33 -/
def jameson1 (pm p pp : ℝ) : Option ℝ := cdiv |pp - 2 * p + pm| |pp + 2 * p + pm|

/-- one direction of vanAlbada.cpp:26-33 -/
def albada1 (pm p pp : ℝ) : Option ℝ :=
  match cdiv (p - pm + 1e-16) (pp - p + 1e-16) with
  | none => none
  | some r => some (1 - (r + |r|) / (1 + r^2))

/-- one direction of vanLeer.cpp:15, 28-41 -/
def leer1 (pm p pp : ℝ) : Option ℝ :=
  let eps : ℝ := 0.001
  cdiv |pp - 2 * p + pm| ((1 - eps) * (|pp - p| + |p - pm|) + eps * (pp + 2 * p + pm))

/-- the sensors bound to Python (bindingsSwitches.cpp:10-18) -/
inductive Kind
  | jamesonPressure | vanAlbadaPressure | vanLeer
deriving DecidableEq

/-- one direction of the chosen sensor -/
def sens1 : Kind → ℝ → ℝ → ℝ → Option ℝ
  | .jamesonPressure => jameson1
  | .vanAlbadaPressure => albada1
  | .vanLeer => leer1

/-- `b.phi(i,j,k,d)` (jameson.cpp:12-34, vanAlbada.cpp:12-34, vanLeer.cpp:12-42) -/
def phi (s : Kind) (p : P3) (i j k : ℤ) (d : ℕ) : Option ℝ :=
  sens1 s (nbr p i j k d).1 (p i j k) (nbr p i j k d).2

/-- sponge length (viscousSponge.cpp:21-23) -/
def spongeLength (o e : V3) : ℝ := Real.sqrt ((e.x - o.x)^2 + (e.y - o.y)^2 + (e.z - o.z)^2)

/-- distance along the sponge axis (viscousSponge.cpp:17-32) -/
def spongeDist (o e c : V3) : ℝ :=
  (c.x - o.x) * ((e.x - o.x) / spongeLength o e) + (c.y - o.y) * ((e.y - o.y) / spongeLength o e)
    + (c.z - o.z) * ((e.z - o.z) / spongeLength o e)

/-- factor applied to the viscosity (viscousSponge.cpp:34-35) -/
def spongeMult (o e : V3) (mult : ℝ) (c : V3) : ℝ :=
  1 + min (max 0 (spongeDist o e c / spongeLength o e * (mult - 1))) mult

/-- viscousSponge.cpp:37: `b.qt(i,j,k,0) *= multiplier` -/
def sponge (o e : V3) (mult : ℝ) (c : V3) (mu : ℝ) : ℝ := mu * spongeMult o e mult c

end PG.Sensor
