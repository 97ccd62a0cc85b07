import Verif.Lemmas.NetChecks1
import Verif.Lemmas.NetCheck
import Verif.Model.Networks2
import Verif.Spec.Networks2

/-! # The checks of the files in `network/`, part 2 -/

namespace ScaleGo.NetCheck

theorem datahighway_harbour_part0 : Network.checkPart Network.datahighway_harbour NetClasses.datahighway_harbour (40 * 0) 40 = true := by kernel_rfl
theorem datahighway_harbour_part1 : Network.checkPart Network.datahighway_harbour NetClasses.datahighway_harbour (40 * 1) 40 = true := by kernel_rfl
theorem datahighway_harbour_part2 : Network.checkPart Network.datahighway_harbour NetClasses.datahighway_harbour (40 * 2) 40 = true := by kernel_rfl
theorem datahighway_harbour_part3 : Network.checkPart Network.datahighway_harbour NetClasses.datahighway_harbour (40 * 3) 40 = true := by kernel_rfl
theorem datahighway_harbour_part4 : Network.checkPart Network.datahighway_harbour NetClasses.datahighway_harbour (40 * 4) 40 = true := by kernel_rfl
theorem datahighway_harbour_part5 : Network.checkPart Network.datahighway_harbour NetClasses.datahighway_harbour (40 * 5) 40 = true := by kernel_rfl
theorem datahighway_harbour_keys : Network.checkKeys Network.datahighway_harbour = true := by kernel_rfl

theorem datahighway_harbour : Network.check Network.datahighway_harbour NetClasses.datahighway_harbour = true := by
  refine Network.check_of_parts 6 (by decide +kernel) (fun i hi => ?_) datahighway_harbour_keys
  obtain rfl | rfl | rfl | rfl | rfl | rfl : i = 0 ∨ i = 1 ∨ i = 2 ∨ i = 3 ∨ i = 4 ∨ i = 5 := by omega
  · exact datahighway_harbour_part0
  · exact datahighway_harbour_part1
  · exact datahighway_harbour_part2
  · exact datahighway_harbour_part3
  · exact datahighway_harbour_part4
  · exact datahighway_harbour_part5

theorem datahighway_part0 : Network.checkPart Network.datahighway NetClasses.datahighway (40 * 0) 40 = true := by kernel_rfl
theorem datahighway_part1 : Network.checkPart Network.datahighway NetClasses.datahighway (40 * 1) 40 = true := by kernel_rfl
theorem datahighway_part2 : Network.checkPart Network.datahighway NetClasses.datahighway (40 * 2) 40 = true := by kernel_rfl
theorem datahighway_part3 : Network.checkPart Network.datahighway NetClasses.datahighway (40 * 3) 40 = true := by kernel_rfl
theorem datahighway_keys : Network.checkKeys Network.datahighway = true := by kernel_rfl

theorem datahighway : Network.check Network.datahighway NetClasses.datahighway = true := by
  refine Network.check_of_parts 4 (by decide +kernel) (fun i hi => ?_) datahighway_keys
  obtain rfl | rfl | rfl | rfl : i = 0 ∨ i = 1 ∨ i = 2 ∨ i = 3 := by omega
  · exact datahighway_part0
  · exact datahighway_part1
  · exact datahighway_part2
  · exact datahighway_part3

theorem deepbrain : Network.check Network.deepbrain NetClasses.deepbrain = true := by kernel_rfl
theorem dock_pos : Network.check Network.dock_pos NetClasses.dock_pos = true := by kernel_rfl
theorem dock : Network.check Network.dock NetClasses.dock = true := by kernel_rfl
theorem dusty : Network.check Network.dusty NetClasses.dusty = true := by kernel_rfl
theorem edgeware : Network.check Network.edgeware NetClasses.edgeware = true := by kernel_rfl
theorem equilibrium : Network.check Network.equilibrium NetClasses.equilibrium = true := by kernel_rfl

theorem gateway_test_part0 : Network.checkPart Network.gateway_test NetClasses.gateway_test (40 * 0) 40 = true := by kernel_rfl
theorem gateway_test_part1 : Network.checkPart Network.gateway_test NetClasses.gateway_test (40 * 1) 40 = true := by kernel_rfl
theorem gateway_test_part2 : Network.checkPart Network.gateway_test NetClasses.gateway_test (40 * 2) 40 = true := by kernel_rfl
theorem gateway_test_part3 : Network.checkPart Network.gateway_test NetClasses.gateway_test (40 * 3) 40 = true := by kernel_rfl
theorem gateway_test_part4 : Network.checkPart Network.gateway_test NetClasses.gateway_test (40 * 4) 40 = true := by kernel_rfl
theorem gateway_test_part5 : Network.checkPart Network.gateway_test NetClasses.gateway_test (40 * 5) 40 = true := by kernel_rfl
theorem gateway_test_keys : Network.checkKeys Network.gateway_test = true := by kernel_rfl

theorem gateway_test : Network.check Network.gateway_test NetClasses.gateway_test = true := by
  refine Network.check_of_parts 6 (by decide +kernel) (fun i hi => ?_) gateway_test_keys
  obtain rfl | rfl | rfl | rfl | rfl | rfl : i = 0 ∨ i = 1 ∨ i = 2 ∨ i = 3 ∨ i = 4 ∨ i = 5 := by omega
  · exact gateway_test_part0
  · exact gateway_test_part1
  · exact gateway_test_part2
  · exact gateway_test_part3
  · exact gateway_test_part4
  · exact gateway_test_part5

end ScaleGo.NetCheck
