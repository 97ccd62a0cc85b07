import Verif.Model.Networks1
import Verif.Model.Networks2
import Verif.Model.Networks3
import Verif.Model.Networks4

/-! # The files in `network/` -/

namespace ScaleGo.Network

/-- The files in `network/`, by name. -/
def shipped : List (Str × List (Str × Entry)) :=
  [ (b!"acala-test", acala_test),
    (b!"acala", acala),
    (b!"balala", balala),
    (b!"bifrost", bifrost),
    (b!"canvas", canvas),
    (b!"centrifuge", centrifuge),
    (b!"chainx", chainx),
    (b!"clover-test", clover_test),
    (b!"clover", clover),
    (b!"crab", crab),
    (b!"crust-main", crust_main),
    (b!"crust", crust),
    (b!"darwinia", darwinia),
    (b!"datahighway-harbour", datahighway_harbour),
    (b!"datahighway", datahighway),
    (b!"deepbrain", deepbrain),
    (b!"dock-pos", dock_pos),
    (b!"dock", dock),
    (b!"dusty", dusty),
    (b!"edgeware", edgeware),
    (b!"equilibrium", equilibrium),
    (b!"gateway-test", gateway_test),
    (b!"karura", karura),
    (b!"khala", khala),
    (b!"kilt", kilt),
    (b!"kintsugi", kintsugi),
    (b!"kulupu", kulupu),
    (b!"kusama", kusama),
    (b!"laminar-test", laminar_test),
    (b!"litentry-test", litentry_test),
    (b!"manta-test", manta_test),
    (b!"moonbase", moonbase),
    (b!"moonbeam", moonbeam),
    (b!"moonriver", moonriver),
    (b!"pangolin", pangolin),
    (b!"phala", phala),
    (b!"plasm", plasm),
    (b!"polkadex", polkadex),
    (b!"polkadot", polkadot),
    (b!"reef", reef),
    (b!"robonomics-test", robonomics_test),
    (b!"rococo", rococo),
    (b!"sakura", sakura),
    (b!"shibuya", shibuya),
    (b!"shiden", shiden),
    (b!"sora", sora),
    (b!"spiritnet", spiritnet),
    (b!"stafi", stafi),
    (b!"statemine", statemine),
    (b!"subgame", subgame),
    (b!"substrate20", substrate20),
    (b!"substrate30", substrate30),
    (b!"uniarts", uniarts),
    (b!"westend", westend) ]

end ScaleGo.Network
