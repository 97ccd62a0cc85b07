import Verif.Lemmas.NetChecks3
import Verif.Lemmas.NetCheck
import Verif.Model.Networks4
import Verif.Spec.Networks4

/-! # The checks of the files in `network/`, part 4 -/

namespace ScaleGo.NetCheck

theorem polkadex : Network.check Network.polkadex NetClasses.polkadex = true := by kernel_rfl
theorem polkadot : Network.check Network.polkadot NetClasses.polkadot = true := by kernel_rfl
theorem reef : Network.check Network.reef NetClasses.reef = true := by kernel_rfl
theorem robonomics_test : Network.check Network.robonomics_test NetClasses.robonomics_test = true := by kernel_rfl
theorem rococo : Network.check Network.rococo NetClasses.rococo = true := by kernel_rfl
theorem sakura : Network.check Network.sakura NetClasses.sakura = true := by kernel_rfl
theorem shibuya : Network.check Network.shibuya NetClasses.shibuya = true := by kernel_rfl
theorem shiden : Network.check Network.shiden NetClasses.shiden = true := by kernel_rfl
theorem sora : Network.check (Network.without b!"MultiCurrencyBalanceOf" Network.sora) NetClasses.sora = true := by kernel_rfl
theorem spiritnet : Network.check Network.spiritnet NetClasses.spiritnet = true := by kernel_rfl
theorem stafi : Network.check Network.stafi NetClasses.stafi = true := by kernel_rfl
theorem statemine : Network.check Network.statemine NetClasses.statemine = true := by kernel_rfl
theorem subgame : Network.check Network.subgame NetClasses.subgame = true := by kernel_rfl
theorem substrate20 : Network.check Network.substrate20 NetClasses.substrate20 = true := by kernel_rfl
theorem substrate30 : Network.check Network.substrate30 NetClasses.substrate30 = true := by kernel_rfl
theorem uniarts : Network.check Network.uniarts NetClasses.uniarts = true := by kernel_rfl
theorem westend : Network.check Network.westend NetClasses.westend = true := by kernel_rfl

end ScaleGo.NetCheck
