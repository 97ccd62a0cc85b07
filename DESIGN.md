# Formal model of itering/scale.go

The source in `/repo` is read as text; nothing of it is executed.  The model is Lean 4 (4.33.0), core library
plus single Mathlib modules where needed.  `cd lean && lake build` checks everything.

## Layout

* `lean/Verif/Model/*.lean`  the model, one definition per Go function, each citing file and lines.
* `lean/Verif/Spec/*.lean`   small specifications that do not mention the model (SCALE layouts, arithmetic).
* `lean/Verif/Lemmas/*.lean` helper lemmas.
* `lean/Verif/Props/*.lean`  the property theorems (named `C01_...`), each next to an `example` that its
  hypotheses are met by a concrete case.
* `properties.jsonl`, `MANIFEST.json`, `seeded/LOG.jsonl` (mutation log).

## Modelling decisions

* Go strings and `[]byte` are `List UInt8`.  `strings.ToLower`/`EqualFold` fold ASCII letters only.
* `interface{}` values are an inductive `Val` carrying the dynamic Go type (`int`, `uint16`, `string`,
  `decimal.Decimal`, `*big.Int`, `[]interface{}`, nil slice, `map[string]interface{}`, ...).  A Go map is an
  association list; whenever the code iterates over a map the list order stands for the (arbitrary) iteration order.
* A Go panic is `Res.panic`; a computation cut off by the recursion budget is `Res.diverge`.  They are different
  from each other and from every ordinary result.  The budget ("fuel") only bounds recursion depth of the
  type-directed decoder, whose recursion follows *type strings* and can be infinite in Go as well;
  `C58` proves that a finished result never depends on it.
* The registry (`TypeRegistry`, `specialRegistry`) is a function/list argument: theorems hold for every registry
  contents.  The Go struct that a registry entry points to is a constructor of `Cls`.
* `int` is 64 bit; conversions and shifts wrap explicitly.
* Library calls: hex, `math/big`, `strings`, `sort`, and the two regular expressions are modelled by their
  documented behaviour on the inputs that occur; JSON marshalling and float conversion are arbitrary parameters (`Ext`), so
  the theorems hold whatever they return.

## Trusted base

Lean's kernel; the axioms `propext`, `Classical.choice`, `Quot.sound` (at most) for every theorem,
listed theorem by theorem in `AXIOMS.md`; the claim that the Lean definitions say what the cited Go lines say (checked by reading only).  
No own axioms, no `sorry`, no compiled evaluation.

## What is modelled

| module of `Model/` | Go code | left out or simplified |
|---|---|---|
| Basic, Value | Go strings, slices, `interface{}`, panics | case folding is ASCII only |
| Tools, Uint128, EthMath, FixPoint | `utiles/tools.go`, `utiles/uint128`, `utiles/crypto/ethereum/common/math`, `utiles/encointer` | two arguments that are the same `*big.Int`; fractions are exact (true for the precisions in use); text parsing by `fmt.Sscanf` as documented |
| Cursor, Decode, Encode | `types/scaleBytes`, every codec class of `types/` with `Process` and `Encode` | capacities of slices; converting a float to an integer is a parameter |
| Registry, Base, BaseTypes, Register, Concurrent, Clean | `types/registry.go`, `types/convert`, `types/override`, `types/customType.go`, `source/` | metadata decoder classes are not entries; slices sharing memory in concurrent registration |
| TypeStruct, Metadata | `TypeStructString`, `types/compare.go`, call and event tables, origin caller | map iteration is a list order, all orders are covered |
| LoadJson, Networks1–4, Networks | `source/source.go`, `network/*.json` | the input is parsed JSON (the parser of `encoding/json` is trusted); numbers are integers; keys are distinct |
| ScaleInfo, Portable, Abi | `types/scaleInfo.go`, `types/specType.go`, `contract/ABI.go` | documentation; JSON round trips are functions on decoded values; ids are natural numbers |
| Json, ToMap | `extrinsic.go:83-102, 316-325` (standard library `encoding/json`) | members of maps keep their order; converting a `float32` is a parameter |
| MetaEarly, MetaOld, MetaV14, MetaRoot | `types/metadata.go`, `types/v12.go` to `types/v15.go`, `metadata.go` | documentation of types; part decoders are called directly instead of by name |
| Extrinsic, ExtrinsicHash | `extrinsic.go`, `event.go` | blake2b is an arbitrary function |
| Keccak, KeccakUnaligned, KeccakAmd64 | `pkg/go-ethereum/crypto/sha3`, `utiles/crypto/keccak`, `utiles/crypto/ethereum` | flags and addressing of the assembly |

Not modelled: `tools/merge.go` (a build tool),
`InitAbi` (JSON parsing), `RemoveDocs`, small unused helpers of `utiles/tools.go` (`IntInSlice`, `Debug`, `UnmarshalAny`),
`math.BigPow`, constructors that only wrap a value.

The parameter `Ext` holds what stays open: JSON text of a value (`json`), reading JSON rows (`rows`), the boxed call of a
proposal (`boxCall`), the digest used by Ethereum addresses inside the codec (`keccak`, given by C66 and C67), the fix-point
parser (`fixPoint`, given by C74), float conversions, `binary.Write` of other types.  Theorems hold for all of them.  Where one
of them must behave as documented this is a hypothesis with a witness (`ReadsRows` in the C59 chain, `ExactFloats` in C115).

## Conventions of the proofs

* Specifications on bits, numbers, SCALE layouts and type descriptions are in `Spec/`; they do not use the model.
* `CxxClaim` is the full statement of a property that the code violates.  `Cxx_claim_false` refutes it by a concrete input,
  other theorems give the exact behaviour, and `Cxx_partial` the statement with the condition that makes it true.
* `kernel_rfl` (Lemmas/KernelRfl) closes an equation by `Eq.refl` and leaves the evaluation to the kernel; it is used for
  witnesses and for symbolic evaluation with free variables.
* Facts about the 782 built-in definitions and the round constants are finite tables checked completely by the kernel.

## What the code does wrong

Every item is a theorem with a concrete witness.

* `ReverseBytes` loses the middle byte of odd lengths (C02), and with it `U256DecoderToBigInt` (C99); a position behind 2^63 - 1 panics (C05).
* Signed integers: i8 is read unsigned, minima are wrong, wide values are written big-endian (C12, C13).
* Compacts: values from 2^30 (`CompactU32`) or 2^63 on are mis-encoded, `Compact<u8>`/`Compact<u16>` are cut (C15 to C17);
  a compact number of a declared type over `u32` is an `int` or a `uint64` depending on the order of the type table (C113).
* Text starting with 0x is taken for hex (C19, C49, C54).  Counts from 2^63 on wrap around (C20, C42, C45).
* `Some` of an empty value becomes `None` (C21, C28, C29); missing struct fields, unknown enum numbers, surplus call values and
  non-canonical booleans are accepted (C22, C23, C38, C61, C63).
* Arguments of `Result` are split at every comma (C24); `[T;0]` reads an element (C25); sets with the highest bit, u8 and u128
  sets, and bit vectors of more than one bit do not round-trip (C26, C27).
* Names: some spellings are rewritten before lookup (C30, C35, C36), open ranges end at 99999999 (C31), override rows under
  mixed-case keys are unreachable (C32), nested tuples are split inside their parentheses (C35, C92), also when `<T as Config>::` stands in them, which is not stripped as `<T as Trait>::` is (C93), the type `Address` of destinations cannot be encoded, so that with metadata before version 14 transfers cannot be written (C94), bulk registration depends on map order (C33, C44), concurrent registration loses
  updates (C34), a name for an array of arrays is not registered and a name for another name ignores version ranges (C102), the element text of arrays is lower-cased (C64).
* Types that read different bytes may compare as equal (C112): `Option<bool>` and `Option<Bool>`, enums of names and of types.
* Type texts of types that recur through arrays, maps or results do not terminate (C41); metadata comparison misses removed
  items and storage (C40).
* Extrinsics: signed version 4 with another data-carrying extension and all of version 5 do not round-trip (C43); unknown
  indices are accepted inside calls (C47); lookup sources are read at absolute positions (C62, C89); non-shortest length
  prefixes change the hash, bare extrinsics of 2^30 bytes are hashed without length (C88).
* Metadata: definitions of earlier metadata stay in use (C55); types without path share the name "" (C56); newtypes over unit
  cannot be encoded by name (C59); parameters without type look like type 0 (C77); chain types can replace types that the
  metadata itself is read with (C79); one-hasher tuple keys are split in V15 (C80); module overrides replace metadata types
  (C81); the signer and signature types listed by V15 are ignored (C95); extensions with data
  that are not on a fixed list are taken for the call (C96); with older metadata signers that are account indices are taken for
  accounts, and the order of extensions in the metadata is ignored (C97), signers are written without their
  first byte, and before version 12 nothing signed can be written (C98); calls boxed under three
  spellings are read but not written (C100); V9 hashers are misread and V11 extensions dropped (C82); the decoders of versions 6 and 7 panic on every module, and V6 entries keep one line of documentation (C114); unknown versions panic instead of giving an error (C83, C84).
* Block headers: floats are read from the start of the buffer (C103); roots of changes tries are read as byte strings (C104); pre-runtime digests of
  primary and secondary slots are read with a weight, and with half of the proof (C106).
* Contracts: tuple names of a contract can replace tuples of the chain (C86); `option<bool>` is read as one byte (C87), also within arrays described by metadata (C59).
* Hash copies of SHAKE-256 panic after reading (C68); checksums of mixed-case input are wrong (C69); `Exp` changes its
  argument (C70); negative hex numbers are written but not read (C73); fix-point unsigned values are read as signed (C74).
* Network files: numbered variants panic and the names of three sets are lost (C107); in four files the class of a name depends on
  the run (C108).
* Texts: the bound of a bounded list is removed where it occurs first, which breaks lists of lists with the same bound (C109); aliases
  of `BoundedVec`, `Box`, `Result` and other wrappers are dropped without an error (C110).
* Metadata: a primitive type inside an opaque wrapper is replaced by `NULL` for all types expanded later (C111).
* Built-in definitions refer to unknown types (C76), and `Forcing` lacks its fourth value (C92); timestamps from 1 to 10^10 are not scaled (C60); balances of 2^128 - 1 are
  wrong (C51); short U256 input is misread (C52) and numerals given as text are written as characters for U256 (C11); wrong Go types encode as zero (C53); ambiguous lengths (C42).
* Values stored as JSON: U256 comes back as text whose characters are written, small signed integers are written as zero, 64-bit
  numbers from 2^53 on lose digits (C115).
* Bytes that are no encodings are decoded: booleans, options with any mark, compact numbers and lengths in longer forms and lengths from 2^31 on,
  unknown members of enums of names, empty arrays which take one byte (C116). Therefore different bytes can be decoded to the same extrinsic (C118).
* Signed integers of up to 64 bits are decoded to values that their own encoder refuses with a panic (C117).
* Bytes that are not there count as a set option flag and as member number 0: a type that contains itself in an option or in the first
  member of an enum is decoded without end from truncated data, which exhausts the stack and ends the process (C120).
* The length of a vector is not compared with the data that are left: four bytes are decoded as 524288 truth values, or as as many
  arrays of any size (C121).
* An extrinsic whose call has an argument of a type that contains itself in an option is decoded without end when it stops before
  the argument (C122): three bytes suffice.
* Metadata can hold a type that is a sequence of itself, or two types with one field that hold each other. `dealOneSiType` looks only for a
  type with one field that holds itself, and calls itself without end for the others (C123).
* The seven bytes 04 00 00 00 02 00 00 (a type that is a sequence of itself), read as the registry of V14 or V15 metadata, exhaust the
  stack, which no caller can recover from (C124).
* A type of a chain like `struct Link(Option<Box<Link>>)` is registered as an option of itself. Encoding any value of it but the
  absent one never ends and exhausts the stack (C126).
* `Enum.Encode` and `Data.Encode` walk the Go map they are given and take the first member that fits. A map with two variants is
  encoded as either of them, by chance, and no error is reported (C127).
* `AccountId.Encode` and `Era.Encode` return the text they are given, and other classes pass on what follows `0x`. A text that is no
  hex comes out as the encoding, and one of odd length shifts what follows by half a byte (C128).
* Hashes, accounts, `[u8; n]` and U256 given as text are written with the length of the text, not with that of the type (C129).
* `ToMap` returns nil without an error if the JSON step fails: an extrinsic with a floating-point parameter that is not finite is the nil map; nonces from 2^53 on are not told apart (C130).
* Loading the same definitions again may change what a name means: an alias of an alias of a name that the file redefines, in four shipped files even in the same order; version ranges are appended again each time (C131).
* An alias with an empty text, or with only `T::` or `<T>`, and a row with fewer than two texts make `RegCustomTypes` panic; what was registered before the panic stays (C133).
* Definitions of one network stay when the next is loaded: 86 built-in names, among them `Balance`, `BalanceOf`, `AccountId`, `BlockNumber`, `Index`, `Weight`, `Signature` and `U256`, are changed by some shipped file, and files that do not define them rely on the built-in meaning. After `equilibrium`, `BalanceOf` of `acala` takes 8 bytes instead of 16 (`C135_earlier`). `Clean` in between avoids this (C135).
* `Clean` empties the tables before it fills them and takes no lock for that: a goroutine that decodes meanwhile panics even on `U32` (`C136_meanwhile`, C136).

## Properties: what is modelled and how it is proved

| id | model | proof |
|----|-------|-------|
| C01 | `HexToBytes`, `BytesToHex`, `TrimHex` | induction on the byte list |
| C02 | `ReverseBytes` as the in-place loop, `Reverse` | even lengths proved; odd lengths lose the middle byte: negation with witness |
| C03 | `ScaleBytes` | induction on the read schedule |
| C04 | all decoder classes | invariant of the open-recursive decoder, induction on fuel |
| C05 | all decoder classes | simulation relation between the two buffers, induction on fuel; floats/lookup source excluded by hypothesis and shown to violate it; for any registry by comparison with the registry in which they refuse |
| C06 | `ProcessAndUpdateData` raw value | from C04 |
| C07 | `U8..U64` | little-endian lemmas |
| C08, C09 | `uint128` package on pairs of 64-bit words | `Nat` arithmetic; division through the trial quotient bound; printing by strong induction |
| C10, C11 | `U128`, `U256` | little-endian lemmas, decimal numerals |
| C12, C13 | `IntFixed` | code violates the claim (i8, minimum value, wide encode): negation + `_partial` |
| C14–C18 | `Compact`, `CompactU32`, `ProcessCompactBytes` | refinement to the SCALE compact spec; violations (>= 2^63, >= 2^30, u8/u16) as negations |
| C19 | `Bytes`, `HexBytes`, `String` | refinement + negation for text starting with 0x |
| C20–C25 | `Vec`, `Option`, `Struct`, `Enum`, `Result`, ... | compositional: element codecs are hypotheses |
| C26, C27 | `Set`, `BitVec` | partial + negation |
| C28, C29 | whole codec | inductive SCALE relation `Scale env ty v bytes`; encode/decode conform by induction on the derivation |
| C30–C34 | registry, overrides, bulk registration, interleavings | state-machine lemmas; C32–C34 violated: negations + partial |
| C35, C36 | string-level type resolution | list-of-characters functions |
| C37–C39 | index keys, enum gap filling, origin caller | induction over the sorted list |
| C40, C41 | `Compare`, `TypeStructString` | C41 violated for recursion through maps/results/arrays |
| C42–C47 | extrinsics, events, calls | on top of the codec model |
| C48–C51 | `Era`, `Data`, hashes, `Balance` | case analysis |
| C52–C54 | short reads, unsupported input types, opaque calls | direct |
| C55, C56 | portable registry registration | direct |
| C57 | EIP-55 with arbitrary hash | induction on the digits |
| C58 | fuel monotonicity | induction on fuel |
| C59 | `processSiType` on any registry | every step of the registration keeps an invariant (which texts are entered, what each entry stands for); lookup of every text; C28 by a simulation between portable ids and texts; covers both spellings of primitives, arrays of composed types (whose texts are lower-cased; `Low`) and `Result` with comma-free arguments, read in a module that overrides none of the metadata names (`Untouched`); wrapped unit types violate the claim: negation + partial |
| C60 | timestamps | seconds/milliseconds rule evaluated exactly; boundary values violate the claim |
| C61, C62 | booleans, addresses | case analysis; violations as negations |
| C63 | call arguments | on top of the call codec |
| C64 | `[T; n]` texts | string lemmas; `[Option<Bool>; n]` violates the claim |
| C65 | `UniqueSlice` | induction |
| C66 | `keccakF1600` of keccakf.go, statement by statement | every unrolled round shown bit by bit to be the FIPS 202 round under the lane permutation of that round |
| C67 | sponge `Write`/`Read`/`padAndPermute` of sha3.go, constructors of hashes.go and shake.go | invariant "buffer and lanes = absorbed blocks"; read positions by induction on the schedule |
| C68 | `clone` with Go slice capacities | the storage offset is wrong for rates below 168 after a read: negation + partial |
| C69 | EIP-55 with the modelled Keccak-256 | C57 + C67; upper-case input gives a wrong checksum: negation + partial |
| C70–C73 | go-ethereum `math` package, word loops over 64-bit words | congruences modulo 2^256, byte-list lemmas, numerals; `Exp` changes its base and negative hex texts are refused: negations |
| C74 | `parserFixPoint` as a computation on binary texts | binary numeral lemmas; sign and lowest value violate the claim: negation + partial |
| C75 | `source.BaseType` as a table, `LoadTypeRegistry`'s inherit loop and `RegCustomTypes` with arbitrary iteration orders | invariant "each name has its first or its final class"; the finite condition on the table is evaluated by the kernel through search trees |
| C76 | class lookup on the loaded registry; `asks` lists the texts a decoder hands to `ProcessAndUpdateData` | closure table checked by the kernel, `C76_asks` shows that `asks` misses nothing; six unknown texts: negation + exact list + partial |
| C77 | decoding of `PortableRegistry` with the library's definitions, `InitPortableRaw` as functions on decoded values (JSON written and read back) | compositional: C07, C14, C19–C23 give the decoded value of each part, read back part by part; absent parameter types violate the claim: negation + exact reading + partial |
| C78 | `MetadataV14Module`, `MetadataV15Module` and their parts as steps on the buffer (Model/MetaV14) | compositional: steps that settle on given bytes once the recursion budget suffices (Lemmas/Settles), wire format of frame-metadata as a separate relation (Spec/Pallets) |
| C79 | `MetadataV14Decoder.Process` on the library's own tables: registry, type entry, pallets, call/event tables, errors, constants, storage, extensions | the parts of C77, C78 and C37 put together; the pallets are read with the registry already changed by the metadata's types, shown to be harmless for tidy names; refuted in general by a struct of the path `String` |
| C80 | `MetadataV15Decoder.Process` on the library's own tables: as C79, and documentation of pallets, runtime apis, outer enums, custom values | as C79; what stands behind the extrinsic is read after the type of the origins was entered; refuted by a storage map with one hasher and a pair as key, which V15 splits and V14 does not |
| C81 | everything between the bytes of V14/V15 metadata and encoded or decoded values, calls, unsigned extrinsics and lists of events: C79/C80 joined with C59, C63, C43, C45 | types covered by C59 whose names do not disturb each other; signed extrinsics are left to C43; refuted by a pallet `Assets` with a type `Approval`, which `types/override` replaces |
| C82 | the decoders of V9 to V13 metadata (types/metadata.go, types/v13.go) down to modules, storage entries, tables and extensions, against a separate description of the format of each version | refuted twice: the hashers of version 9 are read with the names of version 11, and the extensions of version 11 are not read; exact behaviour in `C82_exact` |
| C83 | `MetadataDecoder.Process` of metadata.go: search for the magic bytes, version, dispatch to the decoders of C79, C80, C82 | total description: error, panic or the result of the version's decoder; the slice `Data[Offset:Offset+1]` at the end of the data is taken to panic (capacity equal to length); refuted by any unknown version |
| C84 | `MetadataDecoder.PortableRegistry` | as C83; agreement with `Process` proved for every input on which `Process` succeeds; documentation is not in the model |
| C85 | `getCodecInstant`, `GetCodec`, `ProcessAndUpdateData`, `EncodeWithOpt`, `RegCustomTypes` | which names a type leads to is a relation over the classes in force; the texts a class asks for (`asks`) come from C76 and are proved there to be all |
| C86 | `contract/ABI.go`: `ToScalePortableType`, `Register`; `ProcessSiType` on a decoder in any state | violated by tuples (`C86_claim_false`); JSON and the messages of the ABI are left out; ids are natural numbers |
| C87 | `abiRegister` on any registry with the built-in types (`Equipped`) | the C59 invariant with the ABI configuration (no V14 mark, names prefixed); registries to which metadata or contracts were added are `Equipped` again; `Option<bool>` of ABIs violates the claim: negation + partial |
| C88 | `generateHash` over `decodeExtrinsic`; blake2b is an arbitrary function | inversion of the decoder; hashed bytes compared with the SCALE length (`IsCompact`) in front of the body; non-shortest lengths and bare extrinsics from 2^30 bytes on violate it: negation + partial + exact behaviour |
| C89 | `decodeExtrinsic` behind and without a length | simulation of C05 lifted to extrinsics, run in the registry in which floats and lookup sources refuse (`strict`); a lookup source violates it: negation + partial |
| C90 | `xorInUnaligned`, `copyOutUnaligned` and the sponge over them (Model/KeccakUnaligned) | word by word equality for the five block sizes, then every function of sha3.go equals its portable version from every reachable state; digests against the FIPS 202 sponge |
| C91 | keccakf_amd64.s, instruction by instruction (Model/KeccakAmd64) | kernel evaluation of one round on symbolic registers and memory, word identities for the six complemented lanes, invariant on the carried parities over the 24 rounds; FIPS 202 permutation on bits |
| C92 | resolution of type texts in the registry as loaded at start (C35, C36, C64 over the built-in table) | grammar of texts and their meaning in Spec/OldTypes.lean; texts of the grammar pass the rewritings unchanged; every spelling resolves to a class of the same shape; C28 for values |
| C93 | convertType, getCodecClass, pau, enc for any registry | grammar of marked texts (Sugar) in Spec/OldTypes.lean; the replacements of convertType keep pace with the grammar one by one (Lemmas/Sugar.lean), so both texts look up the same class |
| C94 | processOld, callTable, eventTable, encodeCall, decodeExtrinsic, decodeEvents, convertType with the built-in types | modules and tables by C82, type texts by C93, calls by C63, extrinsics by C43, events by C64; the only entry version 13 adds to the registry is OriginCaller |
| C95 | processSiType, processV14, processV15, encodeExtrinsic, decodeExtrinsic | the entries for signers and signatures are tracked through the registration of the types: they stand for the parameters of the last extrinsic type; metadata by C79 and C80, values by C28, extrinsics by C43; the types listed by version 15 are ignored: negation with witness |
| C96 | processV14, processV15, decodeExtrinsic (readSigned4, readSigned5, readMetaExts) | the bytes of a node, extension by extension in metadata order, against the parts read; independent of the library's encoder; metadata by C79 and C80, signer and signature by C95, values by C28; extensions with unexpected data: negation with witness |
| C97 | processOld, decodeExtrinsic (readSigned4, readTip4, readExts4, readConfigured) with the built-in types | the bytes of a node against the parts read, as in C96; metadata by C82 and C94, signer by C62, signature by C23, C50 and C25, configured fields one by one; account indices as signers: negation with witness |
| C98 | encodeExtrinsic (encSigned, encTip, encExts) with the built-in types | the bytes of a node (as in C97) against the bytes written; parts by C16, C23, C25, C48 and C50; signer written without its first byte, nothing written before version 12: negation with witness + exact behaviour |
| C99 | u256OfText, u256DecoderToBigInt, bytesToBnHex (Model/Helpers) | value of hex text, little-endian bytes; also shows that `u256OfBytes`, used in the rest of the model, is `U256` on hex text; odd lengths: negation with witness + exact behaviour |
| C100 | encodeCall, decodeCall, getCodecClass, processOld | `Spec.Nested`: values with calls in them, to any depth; which texts a lookup consults; boxed calls under three spellings are read but not written: negation with witness |
| C101 | processV14, processV15, processSiType, expandVariant, encodeCall, decodeCall | `CallType`: the outer enum of calls as the wire metadata describes it; `Spec.Nested` over type ids; a pallet name may replace a type: negation with witness |
| C102 | regCustomTypes, getCodecClass, pau, enc, processOld, decodeExtrinsic, encodeExtrinsic after any lists of definitions | what definitions mean and which are in force in a version in Spec/ChainTypes.lean; each list extends a vocabulary (Lemmas/ChainTypes.lean, with C33); type texts by C92 and C93 over that vocabulary, metadata by C94, C97 and C98; names for arrays of arrays are not registered: negation with witness |
| C103 | processFloat | bit patterns of w bytes; the position is ignored: negation with witness, exact result for every buffer |
| C104 | processLogDigest with the classes of digest items | items and their bytes in Spec/Digest.lean after Substrate's `DigestItem`; roots of changes tries are misread: negation with witness |
| C105 | getCodecClass, processStruct, processEnum, processVec, processCompact and their encoders on the built-in `Header` | the same items, `BlockHeader` in the file; texts that begin with 0x are not written back: negation with witness |
| C106 | processStruct, processEnum on the built-in pre-runtime digests | `BabeDigest` after Substrate's `PreDigest`; the weight of early versions is still expected: negation with witness, exact results |
| C107 | readDef, load (LoadTypeRegistry), regPlain, processEnum, processSet | what an entry of a file means in terms of the class it registers and, for numbered variants, of decoding; all files of `network/` as tables; numbers and misplaced set names are dropped: negation with witness, exact list |
| C108 | load, regCustomTypes on all files of `network/` with arbitrary iteration orders | as C75, for keys with version ranges (Lemmas/NetOrder.lean); the finite condition is evaluated by the kernel for each file against the classes in Spec/Networks*.lean; four files depend on the order: negation with witnesses |
| C109 | boundedSub, replaceOne, process, encodeCls | same values, bytes and refusals as `Vec<T>` in both directions; false where the bound occurs in `T` (negation, exact text that is used instead), proved for all other `T` |
| C110 | regCustomTypes, regAlias, aliasClass, getCodecClass | the alias and its text have the same values, bytes and refusals after the registration; false for other wrappers (dropped) and for arguments behind options (replaced), both proved exactly |
| C111 | processSiType, expandComposite, dealOneSiType | invariant over all steps for primitives that are not expanded again; every primitive inside an opaque wrapper ends as `NULL` in every registry; false with a registry of four types |
| C112 | `eqTypes`, `typeStructText`, `pau` on any registry | structural texts are texts of trees and can be parsed in one way only; types with the same tree are read in lock step; `Option<bool>` against `Option<Bool>` violates the claim: negation + partial |
| C113 | `processSiType`, `pau`, `enc` on any metadata | the chain of C59 extended to compact forms of declared numbers; the text decides between `CompactU32` and `Compact`; two orders of one type table violate the claim: negation + partial + exact behaviour |
| C114 | `MetadataV6Decoder`, `MetadataV7Decoder`, `MetadataV8Decoder` and their parts (`MetaEarly`) | version 8 is C82 at version 8; the unknown names make versions 6 and 7 panic: negation with witness; parts on their own by the steps of C82 |
| C115 | `json.Marshal`/`json.Unmarshal` of values and of `GenericExtrinsic` (`Json`), all `Encode` methods | relation between the encoder restricted to the Go types of the decoder and the encoder, induction on fuel; negation with witness, exact behaviour for U256, small signed and large numbers |
| C116 | all decoder classes that `Shape` describes | inversion of the decoder, induction on fuel: whatever is returned with data left over is in the language `Accepts`; canonical layers are SCALE; negation with witness |
| C117 | all decoder and encoder classes that `Shape` describes | `Accepts` of C116 with canonical, encodable layers is `Scale` of a value to itself; induction on the derivation; negation with witness, refusal of signed integers |
| C118 | `ExtrinsicDecoder.Process`, signed part; `addressOf`, `signatureOf` | inversion of every read using C116; data left at the call index gives data left before; map iteration order as a relation |
| C119 | decoder of every described type | induction on the derivation in the lax language, with a decoding lemma for every leaf (`Lemmas/LooseDec.lean`); the converse is C116 |
| C120 | all decoder classes | steps that have a result once the budget suffices (`Ends`); induction on the bytes left, inside it on the types asked for when bytes are absent (`Halts`); the built-in definitions by a computed check of depth 6 over the closed list of texts of C76; negation with witness |
| C121 | all decoder classes | property of the returned value carried through every class (`Yields`), for all types decoding may come to; bytes per element by induction on the language of C116 (`SolidIn`); arrays of built-in texts by a computed check; negation with witness and the general way in which it fails |
| C122 | extrinsic and event decoders | steps that end with enough budget, composed along `processExtrinsic` and `processEvents` (`Ends`), on top of C120; bytes taken per event by counting what is left; the keys of the event tables; negation with witness (a linked list as the argument of a call) |
| C123 | `dealOneSiType`, `ProcessSiType` | the relation "text made from" on pairs of an id and whether its name suffices; well-founded when the finite registry has no cycle, then induction on it; texts as finite trees for the cycles (on top of `process_text`); a set closed under "first needs" for the calls without end; negation with witness (two newtypes that hold each other) |
| C124 | `MetadataV14Decoder.Process`, `MetadataV15Decoder.Process` (`processV14`, `processV15`) | steps that end from every position in the data (`EndsIn`), closed under the combinators of the readers; C120 for the registry, C123 for entering its types, the texts of pallets, extrinsics and runtime APIs resolved in the tables after that (`ReadsPallets`, `ReadsExtrinsic`, `ReadsTail`, provided by `Understood` through `Loaded`); monotony in the budget for the overflow; negation with witness (seven bytes) |
| C125 | `MetadataDecoder.Process`, `MetadataDecoder.PortableRegistry`, decoders of V9 to V13 metadata (`decodeMetadata`, `portableRegistry`, `processOld`) | `EndsIn` for the readers of old modules, C83 and C84 for where the versions begin, C120 for the registry |
| C126 | `EncodeWithOpt`, all `Encode` methods (`enc`, `encodeCls`) | results that stay the same from some budget on (`Arrives`), closed under the combinators of the `Encode` methods; induction on the parts of the value (`ValuePart`) and, for each value, on the chain of options (`OptionOf`); class lookup gives an option a shorter argument or a registered one, so only registered options matter (`options_end`), and those of the built-in types are checked one by one; negation with witnesses (an alias, and a registry of two types) |
| C127 | `EncodeWithOpt`, all `Encode` methods (`enc`, `encodeCls`, `findEntry`) | values up to the order of map members at any depth (`Alike`); which parts a class encodes by which text (`EncStep`, `Visits`); induction on the budget, class by class; a map whose keys name at most one variant gives the same variant in every order (`findEntry_alike`); JSON does not depend on the order because `json.Marshal` sorts keys (assumption `SortedJson`); negation with a witness |
| C128 | `EncodeWithOpt`, all `Encode` methods (`enc`, `encodeCls`) | which texts are handed on unchanged and must be hex (`HexGiven`), collected over all the encoder comes to (`AllHexGiven`, on `Visits` of C127); induction on the budget, class by class, with `IsHexText` closed under concatenation; integers encoded without metadata lead to themselves only (`visits_same`); negation with a witness |
| C129 | `EncodeWithOpt`, `ProcessAndUpdateData`, the classes of fixed width (`encodeCls`, `process`) | widths of type texts by a separate relation (`Wide`, mutual with fields); induction on it for writing (on C128, which makes concatenation length-preserving) and for reading; conditions on what is given (`Sized`); `C129_total` (reading cannot fail given enough bytes) by the same induction; negation with a witness |
| C130 | `ToMap`, `decodeExtrinsic`, every codec class (`process`) | `toMap` over a JSON conversion of all values; one induction over the decoder for any predicate that all its constructors keep (`Builds`), used for "no Go type of its own occurs"; what comes back by a separate relation (`Back`); exact condition; negation with a witness |
| C131 | `RegCustomTypes`, `regCustomKey`, `LoadTypeRegistry`, `network/*.json` | the invariant of C108 (every entry is the built-in one or that of the file) also holds of tables that have the file already; putting the same keys again is without effect on lookups; repetition as a transitive closure; negations with witnesses |
| C132 | `RegCustomTypes`, `LoadTypeRegistry` over the files of `network/`; `EncodeWithOpt` | invariant over sequences of loadings (`Relation.ReflTransGen LoadsShipped`): every registered option is in a fixed list; a file keeps it because only few of its definitions can make a name an option and aliases of their names are among them (`fileOk`, kernel evaluation, linear in the file); then `C126_partial` |
| C133 | `RegCustomTypes`, `newStruct`, `LoadTypeRegistry` over the files of `network/` | case analysis of one turn of the loop: its result is a panic or a state in which the empty text is still unknown; the definition that is looked up for an alias is one of the batch; the texts of the shipped aliases by kernel evaluation |
| C134 | `LoadTypeRegistry` over the files of `network/`, then `MetadataDecoder.Process`, `PortableRegistry` | invariant of the loading loop: the 78 names that the 75 texts of the metadata decoder are looked up under keep their built-in entries; one kernel evaluation over all files shows that only chainx touches one of them, by an alias of the same class; then C82–C84 and C114 apply to the tables after loading |
| C135 | `LoadTypeRegistry` over the files of `network/` one after the other; decoding and encoding afterwards | invariant of the loading loop, with five ways in which a definition may leave a built-in name as it is, checked over all files by one kernel evaluation; for the other 86 names a kernel evaluation of loading the files that change them; C85 carries it over to decoding and encoding |
| C136 | `Clean`, `regBaseType` | the four assignments make the state at the start of a program out of every state; C75 and C108 do the rest. Locks and what other goroutines see meanwhile are left out |
