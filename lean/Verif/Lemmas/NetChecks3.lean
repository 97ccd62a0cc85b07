import Verif.Lemmas.NetCheck
import Verif.Model.Networks3
import Verif.Spec.Networks3

/-! # The checks of the files in `network/`, part 3 -/

namespace ScaleGo.NetCheck

theorem karura : Network.check Network.karura NetClasses.karura = true := by kernel_rfl
theorem khala : Network.check Network.khala NetClasses.khala = true := by kernel_rfl
theorem kilt : Network.check Network.kilt NetClasses.kilt = true := by kernel_rfl
theorem kintsugi : Network.check Network.kintsugi NetClasses.kintsugi = true := by kernel_rfl
theorem kulupu : Network.check Network.kulupu NetClasses.kulupu = true := by kernel_rfl
theorem kusama : Network.check Network.kusama NetClasses.kusama = true := by kernel_rfl
theorem laminar_test : Network.check Network.laminar_test NetClasses.laminar_test = true := by kernel_rfl
theorem litentry_test : Network.check Network.litentry_test NetClasses.litentry_test = true := by kernel_rfl
theorem manta_test : Network.check Network.manta_test NetClasses.manta_test = true := by kernel_rfl
theorem moonbase : Network.check Network.moonbase NetClasses.moonbase = true := by kernel_rfl
theorem moonbeam : Network.check Network.moonbeam NetClasses.moonbeam = true := by kernel_rfl
theorem moonriver : Network.check Network.moonriver NetClasses.moonriver = true := by kernel_rfl
theorem pangolin : Network.check (Network.without b!"RelayAuthoritySigner" Network.pangolin) NetClasses.pangolin = true := by kernel_rfl
theorem phala : Network.check Network.phala NetClasses.phala = true := by kernel_rfl
theorem plasm : Network.check Network.plasm NetClasses.plasm = true := by kernel_rfl

end ScaleGo.NetCheck
