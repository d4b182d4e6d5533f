import Verif.Chem.Formulas
import Verif.Chem.Thermo

/-! The finite table checks, evaluated by the kernel. -/
namespace PG.Chem

theorem src_FFCMY : FFCMY.mech.SrcOk := by decide +kernel
theorem src_Skeletal : Skeletal.mech.SrcOk := by decide +kernel
theorem src_GRI30 : GRI30.mech.SrcOk := by decide +kernel

theorem ok_FFCMY : ∀ x ∈ FFCMY.mech.rxns, x.Ok 12 := by decide +kernel
theorem ok_Skeletal : ∀ x ∈ Skeletal.mech.rxns, x.Ok 32 := by decide +kernel
theorem ok_GRI30 : ∀ x ∈ GRI30.mech.rxns, x.Ok 53 := by decide +kernel

theorem pos_FFCMY : ∀ x ∈ FFCMY.mech.rxns, x.Pos 12 := by decide +kernel
theorem pos_Skeletal : ∀ x ∈ Skeletal.mech.rxns, x.Pos 32 := by decide +kernel
theorem pos_GRI30 : ∀ x ∈ GRI30.mech.rxns, x.Pos 53 := by decide +kernel

theorem bal_FFCMY : ∀ x ∈ FFCMY.mech.rxns, x.Balanced (formulasFFCMY.map Prod.snd) 5 := by decide +kernel
theorem bal_Skeletal : ∀ x ∈ Skeletal.mech.rxns, x.Balanced (formulasSkeletal.map Prod.snd) 5 := by decide +kernel
theorem bal_GRI30 : ∀ x ∈ GRI30.mech.rxns, x.Balanced (formulasGRI30.map Prod.snd) 5 := by decide +kernel

theorem rev_Skeletal : ∀ x ∈ Skeletal.mech.rxns, x.rev = true := by decide +kernel

theorem some_FFCMY : ∀ x ∈ FFCMY.mech.rxns, x.mod.Some 12 := by decide +kernel
theorem some_Skeletal : ∀ x ∈ Skeletal.mech.rxns, x.mod.Some 32 := by decide +kernel
theorem some_GRI30 : ∀ x ∈ GRI30.mech.rxns, x.mod.Some 53 := by decide +kernel

theorem fall_FFCMY : ∀ x ∈ FFCMY.mech.rxns, x.mod.Fall := by decide +kernel
theorem fall_Skeletal : ∀ x ∈ Skeletal.mech.rxns, x.mod.Fall := by decide +kernel
theorem fall_GRI30 : ∀ x ∈ GRI30.mech.rxns, x.mod.Fall := by decide +kernel

end PG.Chem
