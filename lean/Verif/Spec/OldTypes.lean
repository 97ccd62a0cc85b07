import Verif.Props.C35
import Verif.Props.C28

/-!
# Type texts in metadata of versions 9 to 13

Metadata of these versions names types by their Rust text, such as `Vec<(AccountId, Balance)>`.  What the names stand for is
taken from Substrate (frame and primitives of 2019 to 2021).
-/

namespace Spec
open ScaleGo (Str Cls)

/-- Names of types and what they are. -/
def runtimeTypes : List (Str × Shape Str) :=
  [ (b!"u8", .uint 1), (b!"u16", .uint 2), (b!"u32", .uint 4), (b!"u64", .uint 8), (b!"u128", .u128),
    (b!"i16", .int 2), (b!"i32", .int 4), (b!"i64", .int 8), (b!"bool", .bool),
    (b!"Bytes", .bytes .bytes), (b!"Text", .bytes .string),
    (b!"H160", .hash 20), (b!"H256", .hash 32), (b!"H512", .hash 64), (b!"Hash", .hash 32), (b!"CodeHash", .hash 32),
    (b!"AuthorityId", .hash 32), (b!"Signature", .hash 64),
    (b!"AccountId", .account), (b!"ValidatorId", .account), (b!"Balance", .balance), (b!"BalanceOf", .balance),
    (b!"BlockNumber", .uint 4), (b!"Index", .uint 4), (b!"AccountIndex", .uint 4), (b!"EraIndex", .uint 4),
    (b!"SessionIndex", .uint 4), (b!"PropIndex", .uint 4), (b!"ReferendumIndex", .uint 4), (b!"ProposalIndex", .uint 4),
    (b!"MemberCount", .uint 4), (b!"RegistrarIndex", .uint 4), (b!"BountyIndex", .uint 4), (b!"AuctionIndex", .uint 4),
    (b!"ParaId", .uint 4), (b!"Perbill", .uint 4), (b!"Permill", .uint 4), (b!"Percent", .uint 1), (b!"Perquintill", .uint 8),
    (b!"KeyValue", .struct [(b!"key", b!"Vec<u8>"), (b!"value", b!"Vec<u8>")]),
    (b!"Timepoint", .struct [(b!"height", b!"BlockNumber"), (b!"index", b!"u32")]),
    (b!"AccountData", .struct [(b!"free", b!"Balance"), (b!"reserved", b!"Balance"), (b!"miscFrozen", b!"Balance"),
      (b!"feeFrozen", b!"Balance")]),
    (b!"IndividualExposure", .struct [(b!"who", b!"AccountId"), (b!"value", b!"Compact<Balance>")]),
    (b!"ValidatorPrefs", .struct [(b!"commission", b!"Compact<Perbill>")]),
    (b!"Nominations", .struct [(b!"targets", b!"Vec<AccountId>"), (b!"submittedIn", b!"EraIndex"), (b!"suppressed", b!"bool")]),
    (b!"SpanIndex", .uint 4), (b!"NominatorIndex", .uint 4), (b!"AuthIndex", .uint 4), (b!"RewardPoint", .uint 4), (b!"SubId", .uint 4),
    (b!"LeasePeriod", .uint 4), (b!"PerU16", .uint 2), (b!"Gas", .uint 8), (b!"Slot", .uint 8), (b!"AuthorityWeight", .uint 8), (b!"Vote", .uint 1),
    (b!"Conviction", .names [(b!"None", 0), (b!"Locked1x", 1), (b!"Locked2x", 2), (b!"Locked3x", 3), (b!"Locked4x", 4), (b!"Locked5x", 5), (b!"Locked6x", 6)]),
    (b!"BalanceStatus", .names [(b!"Free", 0), (b!"Reserved", 1)]),
    (b!"VoteThreshold", .names [(b!"SuperMajorityApprove", 0), (b!"SuperMajorityAgainst", 1), (b!"SimpleMajority", 2)]),
    (b!"DispatchClass", .names [(b!"Normal", 0), (b!"Operational", 1), (b!"Mandatory", 2)]),
    (b!"Pays", .names [(b!"Yes", 0), (b!"No", 1)]),
    (b!"Reasons", .names [(b!"Fee", 0), (b!"Misc", 1), (b!"All", 2)]),
    (b!"StatementKind", .names [(b!"Regular", 0), (b!"Saft", 1)]),
    (b!"VestingInfo", .struct [(b!"locked", b!"Balance"), (b!"perBlock", b!"Balance"), (b!"startingBlock", b!"BlockNumber")]),
    (b!"TaskAddress", .struct [(b!"blockNumber", b!"BlockNumber"), (b!"index", b!"u32")]),
    (b!"UnlockChunk", .struct [(b!"value", b!"Compact<Balance>"), (b!"era", b!"Compact<EraIndex>")]),
    (b!"Multisig", .struct [(b!"when", b!"Timepoint"), (b!"deposit", b!"Balance"), (b!"depositor", b!"AccountId"), (b!"approvals", b!"Vec<AccountId>")]),
    (b!"RecoveryConfig", .struct [(b!"delayPeriod", b!"BlockNumber"), (b!"deposit", b!"Balance"), (b!"friends", b!"Vec<AccountId>"), (b!"threshold", b!"u16")]),
    (b!"ActiveRecovery", .struct [(b!"created", b!"BlockNumber"), (b!"deposit", b!"Balance"), (b!"friends", b!"Vec<AccountId>")]),
    (b!"SeatHolder", .struct [(b!"who", b!"AccountId"), (b!"stake", b!"Balance"), (b!"deposit", b!"Balance")]),
    (b!"DefunctVoter", .struct [(b!"who", b!"AccountId"), (b!"voteCount", b!"Compact<u32>"), (b!"candidateCount", b!"Compact<u32>")]),
    (b!"LastRuntimeUpgradeInfo", .struct [(b!"specVersion", b!"Compact<u32>"), (b!"specName", b!"Bytes")]),
    (b!"SpanRecord", .struct [(b!"slashed", b!"Balance"), (b!"paidOut", b!"Balance")]),
    (b!"SlashingSpans", .struct [(b!"spanIndex", b!"SpanIndex"), (b!"lastStart", b!"EraIndex"), (b!"lastNonzeroSlash", b!"EraIndex"), (b!"prior", b!"Vec<EraIndex>")]),
    (b!"UnappliedSlash", .struct [(b!"validator", b!"AccountId"), (b!"own", b!"Balance"), (b!"others", b!"Vec<UnappliedSlashOther>"), (b!"reporters", b!"Vec<AccountId>"), (b!"payout", b!"Balance")]),
    (b!"UnappliedSlashOther", .struct [(b!"account", b!"AccountId"), (b!"amount", b!"Balance")]),
    (b!"EraRewardPoints", .struct [(b!"total", b!"RewardPoint"), (b!"individual", b!"Vec<(AccountId, RewardPoint)>")]),
    (b!"TreasuryProposal", .struct [(b!"proposer", b!"AccountId"), (b!"value", b!"Balance"), (b!"beneficiary", b!"AccountId"), (b!"bond", b!"Balance")]),
    (b!"OpenTip", .struct [(b!"reason", b!"Hash"), (b!"who", b!"AccountId"), (b!"finder", b!"AccountId"), (b!"deposit", b!"Balance"), (b!"closes", b!"Option<BlockNumber>"), (b!"tips", b!"Vec<OpenTipTip>"), (b!"findersFee", b!"bool")]),
    (b!"OpenTipTip", .struct [(b!"account", b!"AccountId"), (b!"balance", b!"Balance")]),
    (b!"Tally", .struct [(b!"ayes", b!"Balance"), (b!"nays", b!"Balance"), (b!"turnout", b!"Balance")]),
    (b!"Delegations", .struct [(b!"votes", b!"Balance"), (b!"capital", b!"Balance")]),
    (b!"PriorLock", .struct [(b!"blockNumber", b!"BlockNumber"), (b!"balance", b!"Balance")]),
    (b!"RewardDestination", .enum [(0, b!"Staked", .one b!"Null"), (1, b!"Stash", .one b!"Null"), (2, b!"Controller", .one b!"Null"), (3, b!"Account", .one b!"AccountId"), (4, b!"None", .one b!"Null")]),
    (b!"Renouncing", .enum [(0, b!"Member", .one b!"Null"), (1, b!"RunnerUp", .one b!"Null"), (2, b!"Candidate", .one b!"Compact<u32>")]),
    (b!"Phase", .enum [(0, b!"ApplyExtrinsic", .one b!"u32"), (1, b!"Finalization", .one b!"Null"), (2, b!"Initialization", .one b!"Null")]),
    (b!"ElectionStatus", .enum [(0, b!"Close", .one b!"Null"), (1, b!"Open", .one b!"BlockNumber")]),
    (b!"AccountVote", .enum [(0, b!"Standard", .one b!"AccountVoteStandard"), (1, b!"Split", .one b!"AccountVoteSplit")]),
    (b!"AccountVoteStandard", .struct [(b!"vote", b!"Vote"), (b!"balance", b!"Balance")]),
    (b!"AccountVoteSplit", .struct [(b!"aye", b!"Balance"), (b!"nay", b!"Balance")]),
    (b!"Voting", .enum [(0, b!"Direct", .one b!"VotingDirect"), (1, b!"Delegating", .one b!"VotingDelegating")]),
    (b!"VotingDirect", .struct [(b!"votes", b!"Vec<VotingDirectVote>"), (b!"delegations", b!"Delegations"), (b!"prior", b!"PriorLock")]),
    (b!"VotingDirectVote", .struct [(b!"referendumIndex", b!"ReferendumIndex"), (b!"accountVote", b!"AccountVote")]),
    (b!"VotingDelegating", .struct [(b!"balance", b!"Balance"), (b!"target", b!"AccountId"), (b!"conviction", b!"Conviction"), (b!"delegations", b!"Delegations"), (b!"prior", b!"PriorLock")]),
    (b!"PreimageStatus", .enum [(0, b!"Missing", .one b!"BlockNumber"), (1, b!"Available", .one b!"PreimageStatusAvailable")]),
    (b!"PreimageStatusAvailable", .struct [(b!"data", b!"Bytes"), (b!"provider", b!"AccountId"), (b!"deposit", b!"Balance"), (b!"since", b!"BlockNumber"), (b!"expiry", b!"Option<BlockNumber>")]),
    (b!"BountyStatus", .enum [(0, b!"Proposed", .one b!"Null"), (1, b!"Approved", .one b!"Null"), (2, b!"Funded", .one b!"Null"), (3, b!"CuratorProposed", .one b!"BountyStatusCuratorProposed"), (4, b!"Active", .one b!"BountyStatusActive"), (5, b!"PendingPayout", .one b!"BountyStatusPendingPayout")]),
    (b!"BountyStatusCuratorProposed", .struct [(b!"curator", b!"AccountId")]),
    (b!"BountyStatusActive", .struct [(b!"curator", b!"AccountId"), (b!"update_due", b!"BlockNumber")]),
    (b!"BountyStatusPendingPayout", .struct [(b!"curator", b!"AccountId"), (b!"beneficiary", b!"AccountId"), (b!"unlockAt", b!"BlockNumber")]),
    (b!"Bounty", .struct [(b!"proposer", b!"AccountId"), (b!"value", b!"Balance"), (b!"fee", b!"Balance"), (b!"curator_deposit", b!"Balance"), (b!"bond", b!"Balance"), (b!"status", b!"BountyStatus")]),
    (b!"BidKind", .enum [(0, b!"Deposit", .one b!"Balance"), (1, b!"Vouch", .one b!"BidKindVouch")]),
    (b!"BidKindVouch", .struct [(b!"account", b!"AccountId"), (b!"amount", b!"Balance")]),
    (b!"Bid", .struct [(b!"who", b!"AccountId"), (b!"kind", b!"BidKind"), (b!"value", b!"Balance")]) ]

/-- Types that have a compact form, with the bound of their values and whether they come out as decimals. -/
def compactTypes : List (Str × Nat × Bool) :=
  [ (b!"u64", 2 ^ 64, false), (b!"u128", 2 ^ 128, true), (b!"Balance", 2 ^ 128, true), (b!"BalanceOf", 2 ^ 128, true),
    (b!"BlockNumber", 2 ^ 32, false), (b!"Index", 2 ^ 32, false), (b!"EraIndex", 2 ^ 32, false), (b!"PropIndex", 2 ^ 32, false),
    (b!"ReferendumIndex", 2 ^ 32, false), (b!"ProposalIndex", 2 ^ 32, false), (b!"RegistrarIndex", 2 ^ 32, false),
    (b!"BountyIndex", 2 ^ 32, false), (b!"AuctionIndex", 2 ^ 32, false), (b!"MemberCount", 2 ^ 32, false), (b!"ParaId", 2 ^ 32, false),
    (b!"Perbill", 2 ^ 32, false), (b!"Permill", 2 ^ 32, false) ]

/-- The members of a tuple, separated by commas and blanks. -/
def commaText : List Str → Str
  | [] => []
  | [m] => m
  | m :: n :: ms => m ++ b!", " ++ commaText (n :: ms)

/-- The names a chain has for its types.  Names have no brackets; texts with brackets may be names as well, the others are `free`. -/
structure Names where
  /-- what a name stands for -/
  type : Str → Shape Str → Prop
  /-- the names with a compact form -/
  compact : Str → Nat → Bool → Prop
  /-- texts with brackets that are not names themselves -/
  free : Str → Prop

/-- The names of Substrate. -/
def substrate : Names where
  type w sh := (w, sh) ∈ runtimeTypes
  compact w n d := (w, n, d) ∈ compactTypes
  free _ := True

/-- Type texts over known names. -/
inductive TypeOver (N : Names) : Str → Prop
  | name {w sh} : N.type w sh → TypeOver N w
  | compact32 : TypeOver N b!"Compact<u32>"
  | compact {w n d} : N.compact w n d → TypeOver N (b!"Compact<" ++ w ++ b!">")
  | vec {t} : TypeOver N t → TypeOver N (b!"Vec<" ++ t ++ b!">")
  | option {t} : TypeOver N t → TypeOver N (b!"Option<" ++ t ++ b!">")
  | array {t} (n : Nat) : TypeOver N t → TypeOver N (b!"[" ++ t ++ b!"; " ++ ScaleGo.natToDec n ++ b!"]")
  | tuple (ms : List Str) : ms ≠ [] → (∀ m ∈ ms, TypeOver N m) → TypeOver N (b!"(" ++ commaText ms ++ b!")")

/-- Type texts over the names of Substrate. -/
abbrev RustType := TypeOver substrate

/-- What a type text stands for.  `T` restricts the tuples and `L` the lengths of arrays.  `Null` is no text of metadata; it is what variants
of the types above carry when they carry nothing. -/
inductive MeansOver (N : Names) (T : List Str → Prop) (L : Nat → Prop) : Str → Shape Str → Prop
  | null : MeansOver N T L b!"Null" .null
  | name {w sh} : N.type w sh → MeansOver N T L w sh
  | compact32 : MeansOver N T L b!"Compact<u32>" .compact32
  | compact {w n d} : N.compact w n d → N.free (b!"Compact<" ++ w ++ b!">") → MeansOver N T L (b!"Compact<" ++ w ++ b!">") (.compact n d)
  | bytes : MeansOver N T L b!"Vec<u8>" (.bytes .bytes)
  | vec {t} : TypeOver N t → t ≠ b!"u8" → N.free (b!"Vec<" ++ t ++ b!">") → MeansOver N T L (b!"Vec<" ++ t ++ b!">") (.seq t)
  | optionBool : N.free b!"Option<bool>" → MeansOver N T L b!"Option<bool>" .optionBool
  | option {t} : TypeOver N t → t ≠ b!"bool" → N.free (b!"Option<" ++ t ++ b!">") → MeansOver N T L (b!"Option<" ++ t ++ b!">") (.option t)
  | byteArray (n : Nat) : L n → N.free (b!"[u8; " ++ ScaleGo.natToDec n ++ b!"]") → MeansOver N T L (b!"[u8; " ++ ScaleGo.natToDec n ++ b!"]") (.byteArray n)
  | array {t} (n : Nat) : L n → TypeOver N t → t ≠ b!"u8" → N.free (b!"[" ++ t ++ b!"; " ++ ScaleGo.natToDec n ++ b!"]") →
      MeansOver N T L (b!"[" ++ t ++ b!"; " ++ ScaleGo.natToDec n ++ b!"]") (.array n t)
  | tuple (ms : List Str) : T ms → ms ≠ [] → (∀ m ∈ ms, TypeOver N m) → N.free (b!"(" ++ commaText ms ++ b!")") →
      MeansOver N T L (b!"(" ++ commaText ms ++ b!")") (.struct (ScaleGo.Spec.columns 0 ms))

/-- What a type text over the names of Substrate stands for. -/
abbrev Means := MeansOver substrate

/-! ## Generic code

In the source of a module the types of the runtime are `T::AccountId` or `<T as Trait>::AccountId`, where `Trait` is the trait of the
module (later named `Config`), and types with parameters are `BalanceOf<T>` or `BalanceOf<T, I>`; metadata of these versions has
the texts as in the source. -/

/-- What may stand before a name. -/
def TraitMark (p : Str) : Prop := p = b!"T::" ∨ p = b!"<T as Trait>::" ∨ p = b!"<T as Config>::"

/-- What may stand behind a name. -/
def GenericMark (s : Str) : Prop := s = b!"<T>" ∨ s = b!"<T, I>"

/-- A name with marks among those of `D`. -/
def Marked (D : Str → Prop) (r w : Str) : Prop :=
  ∃ p s, (p = [] ∨ TraitMark p ∧ D p) ∧ (s = [] ∨ GenericMark s ∧ D s) ∧ r = p ++ w ++ s

/-- `r` is the type text `t` as generic code has it, with the marks of `D`. -/
inductive SugarOver (N : Names) (D : Str → Prop) : Str → Str → Prop
  | name {r w sh} : N.type w sh → Marked D r w → SugarOver N D r w
  | compact {r w} : (w = b!"u32" ∨ ∃ n d, N.compact w n d) → Marked D r w → SugarOver N D (b!"Compact<" ++ r ++ b!">") (b!"Compact<" ++ w ++ b!">")
  | vec {r t} : SugarOver N D r t → SugarOver N D (b!"Vec<" ++ r ++ b!">") (b!"Vec<" ++ t ++ b!">")
  | deque {r t} : D b!"VecDeque<" → SugarOver N D r t → SugarOver N D (b!"VecDeque<" ++ r ++ b!">") (b!"Vec<" ++ t ++ b!">")
  | option {r t} : SugarOver N D r t → SugarOver N D (b!"Option<" ++ r ++ b!">") (b!"Option<" ++ t ++ b!">")
  | array {r t} (n : Nat) : SugarOver N D r t →
      SugarOver N D (b!"[" ++ r ++ b!"; " ++ ScaleGo.natToDec n ++ b!"]") (b!"[" ++ t ++ b!"; " ++ ScaleGo.natToDec n ++ b!"]")
  | tuple (ps : List (Str × Str)) : ps ≠ [] → (∀ p ∈ ps, SugarOver N D p.1 p.2) →
      SugarOver N D (b!"(" ++ commaText (ps.map Prod.fst) ++ b!")") (b!"(" ++ commaText (ps.map Prod.snd) ++ b!")")

/-- The same for texts over the names of Substrate. -/
abbrev Sugar := SugarOver substrate

end Spec
