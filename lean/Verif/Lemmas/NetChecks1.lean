import Verif.Lemmas.NetCheck
import Verif.Model.Networks1
import Verif.Spec.Networks1

/-! # The checks of the files in `network/`, part 1 -/

namespace ScaleGo.NetCheck

theorem acala_test : Network.check Network.acala_test NetClasses.acala_test = true := by kernel_rfl
theorem acala : Network.check Network.acala NetClasses.acala = true := by kernel_rfl
theorem balala : Network.check Network.balala NetClasses.balala = true := by kernel_rfl
theorem bifrost : Network.check Network.bifrost NetClasses.bifrost = true := by kernel_rfl
theorem canvas : Network.check Network.canvas NetClasses.canvas = true := by kernel_rfl
theorem centrifuge : Network.check Network.centrifuge NetClasses.centrifuge = true := by kernel_rfl
theorem chainx : Network.check Network.chainx NetClasses.chainx = true := by kernel_rfl
theorem clover_test : Network.check Network.clover_test NetClasses.clover_test = true := by kernel_rfl
theorem clover : Network.check Network.clover NetClasses.clover = true := by kernel_rfl
theorem crab : Network.check (Network.without b!"RelayAuthoritySigner" Network.crab) NetClasses.crab = true := by kernel_rfl
theorem crust_main : Network.check Network.crust_main NetClasses.crust_main = true := by kernel_rfl
theorem crust : Network.check Network.crust NetClasses.crust = true := by kernel_rfl
theorem darwinia : Network.check (Network.without b!"RelayAuthoritySigner" Network.darwinia) NetClasses.darwinia = true := by kernel_rfl

end ScaleGo.NetCheck
