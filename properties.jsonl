{"id": "C01", "title": "Hex text and bytes are inverse", "statement": "Turning any byte string into hex text and parsing it back (with or without a 0x prefix) gives the original bytes; parsing any even-length valid hex text and printing it back gives the same text in lower case. Every byte of input survives.", "quantifier": "for every finite byte string, and for every even-length string over 0-9a-fA-F", "why_tests_cant": "There are infinitely many byte strings; tests compare a handful of literals.", "anchors": ["utiles/tools.go:HexToBytes", "utiles/tools.go:BytesToHex", "utiles/tools.go:AddHex", "utiles/tools.go:TrimHex"]}
{"id": "C02", "title": "Reversing bytes reverses bytes", "statement": "The library's byte reversal returns the bytes in opposite order, so that applying it twice is the identity and no byte value is lost.", "quantifier": "for every byte string of every length", "why_tests_cant": "Tests only ever reverse even-length inputs (2, 4, 8, 16, 32 bytes).", "anchors": ["utiles/tools.go:ReverseBytes", "types/Compact.go:Reverse"]}
{"id": "C03", "title": "Reads from the cursor partition the buffer", "statement": "Any sequence of reads of non-negative lengths returns consecutive slices of the buffer: the concatenation of everything returned is exactly the part of the buffer between the first and the last cursor position, nothing is skipped or returned twice, and a read past the end returns exactly what is left.", "quantifier": "for every buffer, every start offset inside it, and every finite sequence of requested lengths", "why_tests_cant": "The number of read schedules is unbounded.", "anchors": ["types/scaleBytes/scaleBytes.go:GetNextBytes", "types/scaleBytes/scaleBytes.go:GetRemainingLength"]}
{"id": "C04", "title": "Decoding never moves the cursor backwards, past the end, or edits the buffer", "statement": "Whatever type name is decoded, with whatever registered types, on whatever (possibly truncated or hostile) bytes: if decoding returns, the buffer is unchanged and the cursor is between its old position and the end of the buffer.", "quantifier": "for every type string, every registry contents, every spec version, every module name, every metadata and every byte buffer", "why_tests_cant": "Quantifies over all type definitions a user may register, including recursive ones, and all inputs.", "anchors": ["types/base.go:ProcessAndUpdateData", "types/registry.go:GetCodecClass", "types/BTreeMap.go:Process", "types/Bool.go:Process", "types/Bytes.go:Process", "types/Call.go:Process", "types/Compact.go:Process", "types/Enum.go:Process", "types/FixedArray.go:Process", "types/FixedU8.go:Process", "types/Float.go:Process", "types/Int.go:Process", "types/Option.go:Process", "types/Results.go:Process", "types/Set.go:Process", "types/Struct.go:Process", "types/Uint.go:Process", "types/Vectors.go:Process", "types/specType.go:Process", "types/types.go:Process"]}
{"id": "C05", "title": "Decoding depends only on the bytes from the cursor on", "statement": "Decoding a value at offset k of a buffer gives the same value and consumes the same number of bytes as decoding it at offset 0 of the buffer with the first k bytes removed.", "quantifier": "for every type string, every registry whose types avoid the two classes that index the buffer absolutely (floats, legacy lookup source), every prefix and every buffer", "why_tests_cant": "Universally quantified over prefixes and over composite types.", "anchors": ["types/base.go:ProcessAndUpdateData", "types/Float.go:Process", "types/types.go:GenericLookupSource.Process"]}
{"id": "C06", "title": "Raw value is exactly the hex of the consumed bytes", "statement": "After decoding any type, the decoder's raw value is the hex text of precisely the bytes between the cursor before and after.", "quantifier": "for every type string, registry and buffer", "why_tests_cant": "Quantifies over all types and buffers.", "anchors": ["types/base.go:ProcessAndUpdateData", "types/base.go:NextBytes"]}
{"id": "C07", "title": "Unsigned 8/16/32/64-bit integers follow the SCALE layout and round-trip", "statement": "Encoding an in-range integer gives its fixed-width little-endian bytes, and decoding those bytes at any position of any buffer returns that integer and consumes exactly the width.", "quantifier": "for every width in {8,16,32,64}, every value in range, every surrounding buffer", "why_tests_cant": "2^64 values times arbitrary surroundings.", "anchors": ["types/Uint.go:U8", "types/Uint.go:U16", "types/Uint.go:U32", "types/Uint.go:U64"]}
{"id": "C08", "title": "128-bit unsigned arithmetic is exact modulo 2^128", "statement": "Add, Sub, Mul, Lsh, Rsh, And, Or, Xor, Cmp, Equals of the 128-bit type agree with natural-number arithmetic modulo 2^128; quotient and remainder satisfy u = q*v + r with r < v for every non-zero v.", "quantifier": "for all pairs of 128-bit values (and all 64-bit divisors, all shift counts up to 128)", "why_tests_cant": "The domain has 2^256 pairs; the division uses a trial-quotient correction that fails only on rare inputs if wrong.", "anchors": ["utiles/uint128/uint128.go"]}
{"id": "C09", "title": "A 128-bit integer prints as its decimal numeral", "statement": "The string form of a 128-bit value is its base-10 numeral without leading zeros, and parsing it back gives the value.", "quantifier": "for every value below 2^128", "why_tests_cant": "2^128 values; chunked printing pads inner 19-digit chunks, which only shows on particular values.", "anchors": ["utiles/uint128/uint128.go:String", "utiles/uint128/uint128.go:QuoRem64"]}
{"id": "C10", "title": "u128 round-trips, and out-of-range input is refused", "statement": "Encoding an integer 0 <= n < 2^128 as u128 yields the 16 little-endian bytes; decoding yields the decimal numeral of n; encoding a negative or larger integer panics instead of truncating. On short input the missing high bytes count as zero.", "quantifier": "for every integer n and every buffer", "why_tests_cant": "2^128 values.", "anchors": ["types/Uint.go:U128", "utiles/uint128/uint128.go:FromBig", "utiles/uint128/uint128.go:FromBytes"]}
{"id": "C11", "title": "u256 round-trips", "statement": "Encoding 0 <= n < 2^256 as U256 yields the 32 little-endian bytes and decoding those bytes yields n.", "quantifier": "for every n below 2^256 and every surrounding buffer", "why_tests_cant": "2^256 values.", "anchors": ["types/Uint.go:U256", "utiles/tools.go:ReverseBytes"]}
{"id": "C12", "title": "Signed integers decode as two's complement", "statement": "Decoding i8/i16/i32/i64/i128/i256 returns the two's complement value of the little-endian bytes.", "quantifier": "for every width and every bit pattern of that width", "why_tests_cant": "Fails only at one pattern out of 2^n for most widths, and for every pattern of one width.", "anchors": ["types/Int.go:IntFixed.Process"]}
{"id": "C13", "title": "Signed integers encode as little-endian two's complement", "statement": "Encoding a signed integer in range gives its little-endian two's complement bytes, so that decode(encode v) = v.", "quantifier": "for every width and every value in range", "why_tests_cant": "2^256 values; the wide path and the narrow path use different byte orders.", "anchors": ["types/Int.go:IntFixed.Encode", "types/Int.go:BigIntToIntBytes"]}
{"id": "C14", "title": "Compact<u32> conforms to SCALE below 2^30", "statement": "For 0 <= n < 2^30 encoding as Compact<u32> produces the SCALE compact bytes (1, 2 or 4 of them, minimal), decoding any buffer starting with them returns n and consumes exactly them; two different numbers never share an encoding and no encoding is a prefix of another.", "quantifier": "for every n below 2^30 and every trailing data", "why_tests_cant": "2^30 values times unbounded suffixes; mode boundaries.", "anchors": ["types/Compact.go:CompactU32", "types/Compact.go:ProcessCompactBytes"]}
{"id": "C15", "title": "Compact<u32> covers the whole 32-bit range", "statement": "Every 32-bit length or index can be encoded as Compact<u32> and decodes back.", "quantifier": "for every n below 2^32", "why_tests_cant": "Needs values at and above 2^30.", "anchors": ["types/Compact.go:CompactU32.Encode"]}
{"id": "C16", "title": "Compact<u64>/Compact<u128>/Compact<Balance> round-trip", "statement": "Encoding a non-negative integer n that fits the inner type as a compact yields the minimal SCALE compact encoding and decoding it returns n.", "quantifier": "for every n in range of the inner type and every trailing data", "why_tests_cant": "Unbounded values; the failure region starts at 2^63.", "anchors": ["types/Compact.go:Compact.Encode", "types/Compact.go:Compact.Process"]}
{"id": "C17", "title": "Compact of small integers round-trips", "statement": "Compact<u8> and Compact<u16> values decode to what was encoded.", "quantifier": "for every u8 and every u16 value", "why_tests_cant": "Only values needing a wider mode than the inner type are affected.", "anchors": ["types/Compact.go:Compact.Process"]}
{"id": "C18", "title": "A compact prefix determines its own length", "statement": "How many bytes a compact number occupies is determined by its first byte alone: 1, 2, 4, or 5 + (b>>2) for low bits 0,1,2,3, cut off at the end of the buffer.", "quantifier": "for every buffer and offset", "why_tests_cant": "All first bytes times all remaining lengths.", "anchors": ["types/Compact.go:ProcessCompactBytes"]}
{"id": "C19", "title": "Byte strings and text round-trip", "statement": "A byte vector decodes to text when all its bytes are printable ASCII and to 0x-hex otherwise, and encoding the decoded value gives back the original length-prefixed bytes.", "quantifier": "for every byte string shorter than 2^30 bytes and every trailing data", "why_tests_cant": "Unbounded lengths and contents; the two textual forms can be confused.", "anchors": ["types/Bytes.go:Bytes", "types/Bytes.go:HexBytes", "types/Bytes.go:String", "utiles/tools.go:IsASCII"]}
{"id": "C20", "title": "Vec conforms to SCALE", "statement": "If each element encodes to its SCALE bytes then the vector encodes to compact(count) followed by the elements in order and decodes to the same elements in the same order; a claimed count above 524288 is refused with a panic before any element is read; zero elements decode to an empty vector.", "quantifier": "for every element type, every list of values, every trailing data", "why_tests_cant": "Unbounded lengths and arbitrary (nested) element types.", "anchors": ["types/Vectors.go:Vec"]}
{"id": "C21", "title": "Option conforms to SCALE", "statement": "None encodes as 00; Some(v) encodes as 01 followed by v and decodes to v; Option<bool> uses the single bytes 00/01/02; Some and None are never confused.", "quantifier": "for every inner type and value", "why_tests_cant": "Quantifies over all inner types including those whose value looks empty.", "anchors": ["types/Option.go:Option"]}
{"id": "C22", "title": "Structs and tuples are the concatenation of their fields in declared order", "statement": "A struct encodes to the concatenation of its fields' encodings in declared order and decodes to exactly the named fields; adding, removing or reordering other entries in the input map does not matter; a missing field is refused.", "quantifier": "for every field list with distinct names, every value, every trailing data", "why_tests_cant": "Unbounded field lists, arbitrary field types.", "anchors": ["types/Struct.go:Struct", "types/base.go:buildStruct"]}
{"id": "C23", "title": "Enums use the variant index and select exactly that variant", "statement": "A data enum encodes as the one-byte position of the variant followed by its payload, decoding the byte selects the variant at that position and no other; a C-like enum maps through its explicit numbers; an index without variant is refused.", "quantifier": "for every variant list of at most 256 variants with distinct names and every payload", "why_tests_cant": "All variant lists and payload types.", "anchors": ["types/Enum.go:Enum"]}
{"id": "C24", "title": "Result, Box, wrapper, range and map decoders are sequential compositions", "statement": "Result decodes 00 as Ok and 01 as Error of the matching inner type and refuses other tags; Box is transparent; a wrapper skips a compact length; Range reads start then end; a map reads compact(count) key/value pairs in order and refuses more than 1000.", "quantifier": "for every inner type and buffer", "why_tests_cant": "Arbitrary inner types.", "anchors": ["types/Results.go", "types/types.go:Box", "types/types.go:WrapperOpaque", "types/types.go:Range", "types/BTreeMap.go"]}
{"id": "C25", "title": "Fixed arrays contain exactly the declared number of elements", "statement": "[T; n] encodes to n consecutive encodings of T without length prefix, decodes to n elements, and refuses a list of another length.", "quantifier": "for every n, element type and value", "why_tests_cant": "Unbounded n.", "anchors": ["types/FixedArray.go:FixedArray", "types/FixedU8.go:FixedU8"]}
{"id": "C26", "title": "Bit sets decode to the names of the bits that are set", "statement": "Decoding a set of b bits returns the names whose bit is 1, in order.", "quantifier": "for every bit width the registry accepts, every name list and every bit pattern", "why_tests_cant": "All bit patterns and all widths; one width silently loses everything.", "anchors": ["types/Set.go:Set.Process"]}
{"id": "C27", "title": "Bit vectors round-trip", "statement": "A bit sequence decodes to its bits and encoding the result gives back the same bytes.", "quantifier": "for every bit length and content", "why_tests_cant": "Unbounded bit lengths.", "anchors": ["types/types.go:BitVec"]}
{"id": "C28", "title": "SCALE conformance for all composite types", "statement": "For every type built from the supported constructors and every well-typed value, Encode produces exactly the byte string the SCALE specification assigns, and decoding that byte string, followed by anything, at any offset, returns the value and stops right behind it.", "quantifier": "for every type expression of every nesting depth over every registry, every value, every prefix and suffix", "why_tests_cant": "Infinite family of types and values.", "anchors": ["types/base.go:EncodeWithOpt", "types/base.go:ProcessAndUpdateData", "types/registry.go:GetCodecClass"]}
{"id": "C29", "title": "Encodings of one type are uniquely decodable", "statement": "If the encodings of two well-typed values of the same type agree, or one is a prefix of the other, the values are equal.", "quantifier": "for every type and all pairs of well-typed values", "why_tests_cant": "Pairs of arbitrary values.", "anchors": ["types/base.go:EncodeWithOpt"]}
{"id": "C30", "title": "Type lookup ignores letter case and leaves other names alone", "statement": "Registering a type under a name makes every spelling of that name (in any letter case) resolve to it, the most recent registration wins, and lookups of other names are unaffected.", "quantifier": "for every sequence of registrations and every name", "why_tests_cant": "Unbounded registration histories.", "anchors": ["types/registry.go:getCodecInstant", "types/customType.go:RegCustomTypes"]}
{"id": "C31", "title": "Spec-version ranges select the right definition", "statement": "A definition registered for a spec-version range is used exactly for decodes inside that range (the earliest registered matching range wins) and never outside it.", "quantifier": "for every list of ranges and every spec version", "why_tests_cant": "Unbounded ranges and versions.", "anchors": ["types/registry.go:specialVersionCodec", "types/customType.go:regCustomKey"]}
{"id": "C32", "title": "Module-specific overrides apply to the modules they are written for", "statement": "For each (module, type) pair in the override table a decode within that module, named in any letter case, uses the override.", "quantifier": "for every entry of the table and every spelling of the module name", "why_tests_cant": "No test covers the table entries; the table is keyed in mixed case.", "anchors": ["types/override/override.go:ModuleType"]}
{"id": "C33", "title": "Bulk registration does not depend on map iteration order", "statement": "Registering the same set of custom types always produces the same lookups regardless of the iteration order of the Go map.", "quantifier": "for every set of definitions and all permutations of it", "why_tests_cant": "Go randomises the order; a test observes one order per run.", "anchors": ["types/customType.go:RegCustomTypes"]}
{"id": "C34", "title": "Concurrent versioned registrations are not lost", "statement": "When several goroutines register spec-version ranges for the same name, every range is present afterwards.", "quantifier": "for every number of goroutines and every interleaving", "why_tests_cant": "Schedules cannot be enumerated by running tests.", "anchors": ["types/customType.go:regCustomKey"]}
{"id": "C35", "title": "Tuple text is split at its top-level commas", "statement": "A tuple type text (A,B,...) is decoded as the sequence of its top-level member types, also when members contain commas themselves.", "quantifier": "for every list of member type texts", "why_tests_cant": "Unbounded nesting.", "anchors": ["types/base.go:buildStruct"]}
{"id": "C36", "title": "Generic type texts resolve to wrapper and argument", "statement": "Wrapper<Argument> resolves to the class registered for Wrapper with the whole Argument text as its argument, whatever the argument's own nesting; namespaced names resolve through their last segment.", "quantifier": "for every wrapper name and argument text", "why_tests_cant": "Unbounded nesting.", "anchors": ["types/registry.go:GetCodecClass", "types/convert/convert.go:ConvertType"]}
{"id": "C37", "title": "Call and event index keys are unambiguous", "statement": "The lookup key of a call or event, made of module index and variant index below 256, is the hex text of those two bytes; different index pairs never share a key, so decoding the two bytes finds exactly the call or event with these indices.", "quantifier": "for all pairs of indices", "why_tests_cant": "65536^2 pairs, arbitrary metadata.", "anchors": ["types/v14.go", "types/v13.go", "types/v15.go", "types/metadata.go"]}
{"id": "C38", "title": "Portable-registry enums keep variant indices", "statement": "For an enum described in metadata with arbitrary, unordered, gappy variant indices, the registered enum has the variant with index i at position i, gaps are filled with unreachable placeholders, so decoding byte i selects the variant declared with index i.", "quantifier": "for every list of variants with distinct indices", "why_tests_cant": "All index sets and orders.", "anchors": ["types/scaleInfo.go:expandEnum"]}
{"id": "C39", "title": "Origin caller enums keep module indices", "statement": "The synthetic OriginCaller enum has each module's entry at the position equal to the module index.", "quantifier": "for every list of modules with distinct indices", "why_tests_cant": "All index sets.", "anchors": ["types/v13.go:registerOriginCaller"]}
{"id": "C40", "title": "Metadata comparison reports nothing for identical metadata and every real difference", "statement": "Comparing metadata with itself yields no changes; a module, call, event or storage item that is present on one side only is reported; a call whose argument types differ is reported.", "quantifier": "for all pairs of metadata with distinct names", "why_tests_cant": "Arbitrary pairs of metadata.", "anchors": ["types/compare.go:MetadataTag.Compare"]}
{"id": "C41", "title": "Structural type comparison terminates", "statement": "Comparing two type names structurally always returns, also for recursive types.", "quantifier": "for every registry and every pair of type names", "why_tests_cant": "Non-termination cannot be observed by a test.", "anchors": ["types/base.go:Eq", "types/base.go:getTypeStructString", "types/BTreeMap.go:TypeStructString", "types/Bool.go:TypeStructString", "types/Bytes.go:TypeStructString", "types/Call.go:TypeStructString", "types/Compact.go:TypeStructString", "types/Enum.go:TypeStructString", "types/FixedArray.go:TypeStructString", "types/FixedU8.go:TypeStructString", "types/Float.go:TypeStructString", "types/Int.go:TypeStructString", "types/Option.go:TypeStructString", "types/Results.go:TypeStructString", "types/Struct.go:TypeStructString", "types/Uint.go:TypeStructString", "types/Vectors.go:TypeStructString", "types/types.go:TypeStructString"]}
{"id": "C42", "title": "Extrinsic length prefix is accepted exactly when it matches", "statement": "Raw extrinsic bytes are read as length-prefixed exactly when a compact number at the start equals the number of bytes following it, otherwise they are read from the first byte.", "quantifier": "for every byte string", "why_tests_cant": "All inputs.", "anchors": ["extrinsic.go:Process"]}
{"id": "C43", "title": "Extrinsic encode/decode round-trip", "statement": "Encoding an extrinsic and decoding the result with the same metadata gives back the call, its arguments and, when signed, the signer, signature, era, nonce and tip.", "quantifier": "for every metadata, every call in it and all argument values", "why_tests_cant": "Arbitrary metadata and values, both transaction versions, all signed extension lists.", "anchors": ["extrinsic.go:Encode", "extrinsic.go:Process"]}
{"id": "C44", "title": "Signed-extension encoding is deterministic and in metadata order", "statement": "The bytes produced for the signed extensions of an extrinsic do not depend on map iteration order and follow the order of the metadata.", "quantifier": "for every set of supplied extensions and every iteration order", "why_tests_cant": "Go randomises map order; one run shows one order.", "anchors": ["extrinsic.go:GenericExtrinsic.Encode"]}
{"id": "C45", "title": "Event records are decoded in order with consecutive indices", "statement": "Decoding an event vector yields one record per announced event, in order, numbered 0,1,2,..., each starting where the previous one stopped; an event index missing from the metadata is refused.", "quantifier": "for every metadata, event count and byte buffer", "why_tests_cant": "Unbounded number of events and arbitrary argument types.", "anchors": ["event.go:EventsDecoder.Process", "event.go:EventRecord.Process"]}
{"id": "C46", "title": "Nested calls are all reported", "statement": "Decoding a call reports the raw bytes of every nested call, inner calls before the calls containing them, and nothing else.", "quantifier": "for every nesting depth and every metadata", "why_tests_cant": "Unbounded nesting.", "anchors": ["types/Call.go:Process", "types/base.go:ProcessAndUpdateData"]}
{"id": "C47", "title": "Unknown call index is refused", "statement": "Decoding a call whose two index bytes are not in the metadata is refused rather than decoded as something else.", "quantifier": "for every metadata and every index pair outside it", "why_tests_cant": "All index pairs and all metadata.", "anchors": ["types/Call.go:Process", "extrinsic.go:Process"]}
{"id": "C48", "title": "Mortal era round-trips", "statement": "Era bytes decode to 00 for the immortal era and to the two bytes in hex otherwise, and encoding gives back the same bytes.", "quantifier": "for every first and second byte and trailing data", "why_tests_cant": "65536 patterns times arbitrary suffixes.", "anchors": ["types/types.go:Era"]}
{"id": "C49", "title": "Identity data round-trips", "statement": "The identity Data type decodes None, raw bytes of length 0..32 and the four hash kinds, and encoding the decoded value gives back the same bytes.", "quantifier": "for every tag and content", "why_tests_cant": "256^32 contents.", "anchors": ["types/types.go:Data"]}
{"id": "C50", "title": "Hashes, account ids and addresses round-trip", "statement": "Fixed-size hashes (20, 32, 64 bytes) and account ids decode to 0x-hex of exactly their bytes and encode back to them.", "quantifier": "for every byte string of the right size and every trailing data", "why_tests_cant": "2^512 values.", "anchors": ["types/types.go:H160", "types/types.go:H256", "types/types.go:H512", "types/types.go:AccountId"]}
{"id": "C51", "title": "Balances round-trip over the whole 128-bit range", "statement": "Every 128-bit balance decodes to its numeric value and encodes back to the same bytes.", "quantifier": "for every value below 2^128", "why_tests_cant": "Fails only at the maximum value.", "anchors": ["types/types.go:Balance"]}
{"id": "C52", "title": "Truncated input is completed with zeros, never with other data", "statement": "When the buffer ends inside a fixed-width unsigned integer the missing bytes count as zero and the cursor stops at the end of the buffer.", "quantifier": "for every width and every short buffer", "why_tests_cant": "All short buffers.", "anchors": ["types/Uint.go", "types/types.go:AccountId"]}
{"id": "C53", "title": "Unsupported Go input types are refused by the integer encoders", "statement": "Encoding a value of a Go type that an integer encoder does not support is refused instead of silently producing another number.", "quantifier": "for every integer width and every Go numeric type", "why_tests_cant": "Combinations of dynamic types and widths.", "anchors": ["types/Uint.go:U8.Encode", "types/Uint.go:U32.Encode", "types/Uint.go:U64.Encode", "types/Compact.go:CompactU32.Encode"]}
{"id": "C54", "title": "Opaque calls decode to the wrapped call", "statement": "An opaque call decodes its payload bytes as a call, whatever bytes the payload consists of.", "quantifier": "for every payload", "why_tests_cant": "Fails only for payloads that happen to be printable ASCII.", "anchors": ["types/types.go:OpaqueCall"]}
{"id": "C55", "title": "Type definitions of the newest metadata are used", "statement": "After decoding metadata, the types it describes are the ones used for decoding, even if earlier metadata described types of the same path differently.", "quantifier": "for every pair of metadata descriptions", "why_tests_cant": "Depends on process-global history.", "anchors": ["types/scaleInfo.go:ProcessSiType", "types/customType.go:RegCustomTypes"]}
{"id": "C56", "title": "Types with the same path get different names", "statement": "Two different portable types that share a path are registered under different names.", "quantifier": "for every portable registry", "why_tests_cant": "All registries.", "anchors": ["types/scaleInfo.go:nameSiType"]}
{"id": "C57", "title": "Checksummed Ethereum addresses only change letter case", "statement": "The checksummed form of a 20-byte address is 0x followed by its 40 hex digits, changed only in letter case, and encoding it gives the original bytes.", "quantifier": "for every 20-byte address and every hash function", "why_tests_cant": "2^160 addresses.", "anchors": ["utiles/crypto/ethereum/encode.go:Encode", "types/types.go:EthereumAddress"]}
{"id": "C58", "title": "The decoding result does not depend on internal bounds", "statement": "Whenever decoding finishes its result is unique: it does not depend on how much recursion was available, and decoding the same bytes with the same registry always gives the same value.", "quantifier": "for every type, registry and buffer", "why_tests_cant": "Quantifies over all runs.", "anchors": ["types/base.go:ProcessAndUpdateData"]}
{"id": "C60", "title": "Timestamps in milliseconds decode to whole seconds", "statement": "A timestamp of n milliseconds, given as a 64-bit Moment or as a compact number, decodes to n div 1000 and consumes exactly its bytes.", "quantifier": "for every n below 2^64, every registry and buffer", "why_tests_cant": "2^64 timestamps in every position of every buffer.", "anchors": ["types/types.go:Moment", "types/types.go:CompactMoment"]}
{"id": "C61", "title": "Only 00 and 01 are booleans", "statement": "A boolean is one byte, 00 for false and 01 for true; both are written the same way, and every other byte is refused.", "quantifier": "for every byte, registry and buffer", "why_tests_cant": "Every position in every buffer.", "anchors": ["types/Bool.go:Process", "types/Bool.go:Encode"]}
{"id": "C62", "title": "Addresses decode to the account or index they contain", "statement": "An address written as ff and an account id decodes to the account id; an address written as an account index decodes to that index; exactly these bytes are consumed.", "quantifier": "for every address type, account id, index and buffer", "why_tests_cant": "2^256 account ids, 2^64 indices, arbitrary surrounding bytes.", "anchors": ["types/types.go:Address", "types/types.go:GenericAddress", "types/types.go:GenericLookupSource"]}
{"id": "C63", "title": "Calls are encoded with exactly one value per argument", "statement": "Encoding a call known to the metadata writes its two index bytes and the encodings of the values given for its arguments, in order; these bytes decode to the same call; it is refused unless there is exactly one value per argument.", "quantifier": "for every metadata, call and list of values", "why_tests_cant": "Arbitrary metadata and argument types.", "anchors": ["types/Call.go:Encode", "types/Call.go:Process"]}
{"id": "C64", "title": "Array texts keep their element type", "statement": "A text [T; n] that is not itself registered means n consecutive values of the type T, whatever T is, including another array.", "quantifier": "for every element text, length and registry", "why_tests_cant": "All type texts.", "anchors": ["types/registry.go:getCodecInstant", "types/FixedArray.go:FixedArray"]}
{"id": "C65", "title": "Removing duplicates keeps first occurrences in order", "statement": "UniqueSlice returns exactly the members of the list, each once, in the order of their first occurrence.", "quantifier": "for every list", "why_tests_cant": "Lists of every length.", "anchors": ["utiles/tools.go:UniqueSlice"]}
{"id": "C66", "title": "The hash permutation is the one of the standard", "statement": "The permutation applied to the 25-word state is Keccak-f[1600] of FIPS 202: after it, every bit is the bit the 24 rounds of theta, rho, pi, chi and iota give, with the round constants of the standard's shift register.", "quantifier": "for every state of 1600 bits", "why_tests_cant": "2^1600 states; a slip in one lane of one round shows only in some of them.", "anchors": ["pkg/go-ethereum/crypto/sha3/keccakf.go:keccakF1600"]}
{"id": "C67", "title": "Hashes are the sponge outputs of the standard", "statement": "Every hash and extendable-output function of the package returns the sponge of FIPS 202 (with the rate, padding bits and length belonging to its name) of the bytes written, however they were cut into writes and however the output is cut into reads; writing after reading is refused.", "quantifier": "for every message, every division into writes and every sequence of read lengths", "why_tests_cant": "Unbounded messages and divisions.", "anchors": ["pkg/go-ethereum/crypto/sha3/sha3.go:Write", "pkg/go-ethereum/crypto/sha3/sha3.go:padAndPermute", "pkg/go-ethereum/crypto/sha3/sha3.go:Read", "pkg/go-ethereum/crypto/sha3/hashes.go:New256", "utiles/crypto/keccak/hash.go:Keccak256"]}
{"id": "C68", "title": "A cloned hash state behaves as the original", "statement": "The copy made by Clone answers every later read with the bytes the original would have given.", "quantifier": "for every hash, message, number of bytes read before the copy and later read length", "why_tests_cant": "Depends on the position in the output block at the time of copying.", "anchors": ["pkg/go-ethereum/crypto/sha3/sha3.go:clone", "pkg/go-ethereum/crypto/sha3/sha3.go:Sum", "pkg/go-ethereum/crypto/sha3/shake.go:Clone"]}
{"id": "C69", "title": "Ethereum addresses get the EIP-55 checksum of their bytes", "statement": "For the hex text of 20 bytes, in any letter case, the result is 0x and the hex digits of the bytes, a letter being upper case exactly when the corresponding digit of the Keccak-256 digest of the lower-case text is at least 8; decoding an EthereumAddress gives that form.", "quantifier": "for every 20 bytes and every letter case of the text", "why_tests_cant": "2^160 addresses times 2^40 spellings.", "anchors": ["utiles/crypto/ethereum/encode.go:Encode", "types/types.go:EthereumAddress", "utiles/crypto/keccak/hash.go:Keccak256"]}
{"id": "C70", "title": "Exponentiation modulo 2^256", "statement": "Exp returns base to the exponent modulo 2^256 and leaves base and exponent as they were.", "quantifier": "for every base and exponent", "why_tests_cant": "Unbounded integers.", "anchors": ["utiles/crypto/ethereum/common/math/big.go:Exp"]}
{"id": "C71", "title": "Checked 64-bit arithmetic", "statement": "SafeAdd, SafeSub and SafeMul return the result modulo 2^64 and set the flag exactly when the true result does not fit; FirstBitSet of a nonzero number is the exponent of the largest power of two dividing it.", "quantifier": "for every pair of 64-bit words; for every integer", "why_tests_cant": "2^128 pairs.", "anchors": ["utiles/crypto/ethereum/common/math/integer.go:SafeAdd", "utiles/crypto/ethereum/common/math/integer.go:SafeSub", "utiles/crypto/ethereum/common/math/integer.go:SafeMul", "utiles/crypto/ethereum/common/math/big.go:FirstBitSet"]}
{"id": "C72", "title": "Byte forms of big integers", "statement": "PaddedBigBytes, ReadBits, Byte and U256Bytes give the big-endian bytes of the absolute value (of the value modulo 2^256), padded or cut as documented; S256 is the two's complement reading and inverts U256 on the signed 256-bit range.", "quantifier": "for every integer, length and position", "why_tests_cant": "Word boundaries in arbitrarily long numbers.", "anchors": ["utiles/crypto/ethereum/common/math/big.go:PaddedBigBytes", "utiles/crypto/ethereum/common/math/big.go:ReadBits", "utiles/crypto/ethereum/common/math/big.go:Byte", "utiles/crypto/ethereum/common/math/big.go:U256Bytes", "utiles/crypto/ethereum/common/math/big.go:S256"]}
{"id": "C73", "title": "Numbers written as text are read back", "statement": "HexOrDecimal64, HexOrDecimal256 and Decimal256 values are read back from the text they are written as; decimal and 0x texts are read as their value exactly when it fits.", "quantifier": "for every value in range and every digit text", "why_tests_cant": "2^256 values.", "anchors": ["utiles/crypto/ethereum/common/math/integer.go:ParseUint64", "utiles/crypto/ethereum/common/math/big.go:ParseBig256", "utiles/crypto/ethereum/common/math/big.go:MarshalText"]}
{"id": "C74", "title": "Fixed-point numbers decode to the value they stand for", "statement": "A SubstrateFixedU64 decodes to its 64 bits, as an unsigned number, divided by 2^32, and a SubstrateFixedI128 to its 128 bits, as a signed number, divided by 2^64, both cut off after nine fractional bits.", "quantifier": "for every bit pattern, registry and buffer", "why_tests_cant": "2^64 and 2^128 patterns.", "anchors": ["utiles/encointer/parserFixPoint.go:parserFixPoint", "types/specType.go:SubstrateFixedU64", "types/specType.go:SubstrateFixedI128"]}
{"id": "C75", "title": "Built-in types do not depend on map order", "statement": "The registry after loading the definitions of source/base.go is the same for every iteration order of the Go maps, in LoadTypeRegistry and in RegCustomTypes, and loading never panics.", "quantifier": "for every pair of iteration orders of the 782 definitions", "why_tests_cant": "A test sees a few of the 782! orders; an alias met too early would register a different class.", "anchors": ["source/source.go:LoadTypeRegistry", "types/customType.go:RegCustomTypes", "source/base.go:BaseType", "types/registry.go:regBaseType"]}
{"id": "C76", "title": "Built-in definitions mention known types only", "statement": "Every type text that decoding one of the built-in definitions of source/base.go may ask for is registered, so that decoding does not panic on an unknown type.", "quantifier": "for every definition and everything it leads to, transitively", "why_tests_cant": "Needs a value that reaches the missing type; 782 definitions with thousands of variants.", "anchors": ["source/base.go:BaseType", "types/registry.go:GetCodecClass", "types/base.go:ProcessAndUpdateData"]}
{"id": "C59", "title": "Types described by metadata", "statement": "After the portable types of V14+ metadata (or of a contract ABI) have been registered, encoding and decoding under the text registered for a portable type follow the SCALE specification for the type as the metadata describes it, at every depth.", "quantifier": "for every portable registry, every type in it and every value of the type", "why_tests_cant": "Metadata registries have hundreds of mutually referring types; whether a text registered under one name still means the described type depends on all other names.", "anchors": ["types/scaleInfo.go:ProcessSiType", "types/scaleInfo.go:dealOneSiType", "types/scaleInfo.go:expandComposite", "types/scaleInfo.go:expandEnum", "types/customType.go:RegCustomTypes", "types/registry.go:GetCodecClass"]}
{"id": "C77", "title": "Portable registry is read as written", "statement": "The type registry of V14+ metadata is decoded completely, and what InitPortableRaw makes of it has, for every id, the path, the parameters and the definition that were written; nothing but documentation is lost.", "quantifier": "for every encoded registry, any position in the buffer and any decoder context", "why_tests_cant": "Registries have hundreds of nested entries with optional parts; a confusion of absent and zero values shows only for particular ids.", "anchors": ["types/scaleInfo.go:InitPortableRaw", "types/scaleInfo.go:SiType", "types/v14.go:Process", "source/base.go:BaseType"]}
{"id": "C78", "title": "Pallets of V14 and V15 metadata are read as written", "statement": "The pallets of V14 and V15 metadata are decoded completely and in order: name, storage prefix, every storage entry with its modifier, hashers, type ids, default value and documentation, the type ids of calls, events and errors, every constant and the index are those that were written.", "quantifier": "for every encoded list of pallets, any position in the buffer and any decoder context", "why_tests_cant": "Pallets consist of many optional parts; a wrong order or a flag read wrongly shifts everything behind it only for particular combinations.", "anchors": ["types/v14.go:MetadataV14Module", "types/v14.go:MetadataV14ModuleStorage", "types/v14.go:MetadataV14ModuleStorageEntry", "types/v14.go:PalletConstantMetadataV14", "types/v15.go:MetadataV15Module"]}
{"id": "C79", "title": "V14 metadata gives the modules and tables it describes", "statement": "Let bytes be the encoding of V14 metadata whose types are numbered in order, whose pallets have distinct indices, whose calls, events and errors are variant types with distinct indices, and whose types can be entered. Then MetadataV14Decoder.Process reads exactly these bytes; the call table has at (pallet index, variant index) exactly the call with that name, module and arguments, and no others; likewise the events; each module has its constants, errors and storage entries with the texts of their types; and the signed extensions are listed with the texts of their types.", "quantifier": "All registries, pallets, extrinsic parts and encodings of them within the library's length limits, all positions in a longer input, all versions and contexts.", "why_tests_cant": "Tests decode a few metadata files of real chains and look at single values of the result; they cannot show that no call is lost, attributed to the wrong index, or given a wrong argument for other metadata.", "anchors": ["types/v14.go:28-171", "types/scaleInfo.go:121-160", "types/metadata.go:738-749"]}
{"id": "C80", "title": "V15 metadata gives the modules and tables it describes", "statement": "As C79 for V15 metadata: MetadataV15Decoder.Process reads exactly the bytes of the encoding; call and event tables, errors, constants, storage entries and signed extensions are those described, and so are the runtime type, the runtime apis with their methods, inputs and outputs, the outer enum types and the custom values. A storage map with one hasher has one key.", "quantifier": "All V15 metadata with regular types and pallets, every encoding, any position in the buffer.", "why_tests_cant": "Metadata of live chains is megabytes of nested optional parts; storage maps keyed by one tuple are rare and look like maps with several keys.", "anchors": ["types/v15.go:MetadataV15Decoder.Process", "types/v15.go:MetadataV15Module", "types/v15.go:RuntimeApiMetadataV15", "types/v15.go:RuntimeApiMethodMetadataV15", "types/v15.go:138-141"]}
{"id": "C81", "title": "Calls, extrinsics and events follow the metadata", "statement": "Once V14 or V15 metadata has been read, a call that it describes is encoded as its two indices followed by the SCALE encodings of its arguments, as the types of the metadata demand; these bytes decode to the call with the names and values of its arguments; unsigned extrinsics of versions 4 and 5 with this call round-trip; a list of event records (phase, indices, arguments, topics) decodes to these events; and values of any type of the metadata are coded as described.", "quantifier": "for all metadata whose types are entered under names of their own, all calls and events in it, all values of the arguments, any number of events", "why_tests_cant": "Tests decode a few calls and events of live chains. Whether an argument is coded as its type demands depends on the metadata, on all names entered in the registry and on the module in which it is decoded.", "anchors": ["types/v14.go:MetadataV14Decoder.Process", "types/v15.go:MetadataV15Decoder.Process", "types/Call.go:Call.Process", "extrinsic.go:ExtrinsicDecoder.Process", "event.go:EventsDecoder.Process", "types/override/override.go:ModuleType"]}
{"id": "C82", "title": "Metadata of versions 9 to 13 gives the modules and tables it describes", "statement": "For every list of modules (storage entries of every kind, calls, events, constants, errors and, from version 12, the module's index), every list of extension identifiers and every SCALE encoding of metadata of version 9 to 13 built from them: decoding gives exactly these modules with names, prefixes, types, hashers, defaults and documentation; the call and event tables map a two-byte index to the call or event at that position of the module with that number (before version 12 modules with calls, respectively events, are counted; from version 12 on the module's own index counts), and to nothing else; and the extension identifiers are kept.", "quantifier": "all versions 9..13, all modules, all extensions, all registries with the usual meaning of the basic texts, all encodings", "why_tests_cant": "The metadata fixtures of the repository are a handful of chains, none with every kind of entry in every version; that one list of hasher names serves all versions only shows with version 9 metadata that uses the third or a later hasher.", "anchors": ["types/metadata.go:777-956", "types/v13.go:MetadataV13Decoder.Process", "types/v13.go:MetadataV13ModuleStorage"]}
{"id": "C83", "title": "The metadata decoder accepts metadata in both forms a node gives and reports anything else", "statement": "For every metadata body of version 9 to 15, the bytes `meta`, version, body and the same wrapped as Option<OpaqueMetadata> both decode to the body's metadata together with the version's name and number; every other input gives the error \"not metadata\" or, if it has the magic bytes, some metadata or an error, never a panic. The error comes exactly when the magic bytes are neither at the start nor behind an optional compact number.", "quantifier": "all inputs, all versions 9..15, all bodies the decoder of the version reads, both forms", "why_tests_cant": "Tests feed complete metadata of a few chains; inputs that are cut off, of an unknown version or not metadata at all are hardly tried.", "anchors": ["metadata.go:MetadataDecoder.Process", "types/registry.go:123-129"]}
{"id": "C84", "title": "PortableRegistry gives the types of the metadata or an error", "statement": "For every input `PortableRegistry` returns: the types at the beginning of metadata of version 14 or 15, in either form, whatever follows them; the error about old metadata exactly for versions below 14; the error \"not metadata\" exactly when `Process` returns it. Whenever `Process` succeeds on metadata of version 14 or later, the types are the ones it enters into the library.", "quantifier": "all inputs, all lists of types, both forms, all versions", "why_tests_cant": "The one test of this function looks at a single chain; that it agrees with Process on all inputs cannot be sampled.", "anchors": ["metadata.go:MetadataDecoder.PortableRegistry"]}
{"id": "C85", "title": "Registering types leaves the types that do not depend on them as they were", "statement": "Let definitions be registered with RegCustomTypes. A type text decodes and encodes every input as before, if none of the texts that it leads to (by the classes in force before) is looked up under the name of one of the definitions, under that name with a version behind `#`, or under the part of that name before `#`. In general: decoding and encoding depend only on the entries of the names that the type leads to.", "quantifier": "all registries, all lists of definitions, all type texts, all metadata, all inputs and values, all recursion depths", "why_tests_cant": "One registry serves all chains, versions and contracts of a process; tests register one chain and decode its own data, so damage to types of other origin is not seen.", "anchors": ["types/customType.go:RegCustomTypes", "types/registry.go:RuntimeType.getCodecInstant", "types/registry.go:RuntimeType.GetCodecClass", "types/base.go:ScaleDecoder.ProcessAndUpdateData", "types/base.go:EncodeWithOpt"]}
{"id": "C86", "title": "Registering a contract leaves the types of the chain as they were", "statement": "Let the types of a contract be registered under a prefix with which no name in use begins. Then every type text that decodes before the registration decodes to the same value afterwards. (False for tuples: their names get no prefix and are ambiguous. True of all types that lead to no name of a tuple, of a primitive type under primitive_types: or of the parts of extrinsics.) A decoder that has registered one contract refuses the next until it is initialised again.", "quantifier": "all contracts, all prefixes without '#', all registries, all type texts, inputs and values", "why_tests_cant": "The repository's test registers one contract in an otherwise empty process and counts the names; what happens to types that were there before is not looked at.", "anchors": ["contract/ABI.go:MetadataAbi.Register", "contract/ABI.go:AbiType.ToScalePortableType", "types/scaleInfo.go:ScaleInfo.ProcessSiType", "types/scaleInfo.go:317-336"]}
{"id": "C87", "title": "Values of contract types follow the ABI", "statement": "After MetadataAbi.Register has registered the types of an ink! contract, on a library with its built-in types and possibly the types of chain metadata or other contracts, every value of a type of the ABI encodes under its GetTypeNames name to the bytes that SCALE prescribes for the type definition, and these bytes decode to the value.", "quantifier": "all ABIs (recursive and nested types included), all prefixes, all values, all buffers, all registries the contract is added to", "why_tests_cant": "An ABI has unboundedly many combinations of type definitions, and whether a value survives depends on names registered before; tests use one flipper contract. The violation (Option<bool> read as one byte) needs the lower-case spelling of ABIs, which no metadata test has.", "anchors": ["contract/ABI.go:Register", "contract/ABI.go:ToScalePortableType", "contract/ABI.go:GetTypeNames", "types/scaleInfo.go:ProcessSiType", "types/Option.go:Process"]}
{"id": "C88", "title": "The extrinsic hash is the hash of the length-prefixed bytes", "statement": "The hash reported for a signed extrinsic is the blake2b-256 hash of its SCALE length followed by its bytes, whether it was given with or without its length; an unsigned extrinsic has no hash.", "quantifier": "for every registry, metadata, buffer and every hash function in place of blake2b", "why_tests_cant": "Tests compare a few known hashes; the claim covers all buffers, both forms and all lengths.", "anchors": ["extrinsic.go:generateHash", "extrinsic.go:Process", "types/Compact.go:CompactU32.Encode"]}
{"id": "C89", "title": "An extrinsic is decoded alike with and without its length", "statement": "An extrinsic that is decoded behind its length is decoded to the same version, signature, call and arguments (and hash) when the length is left out, unless its first bytes could themselves be taken for its length.", "quantifier": "for every registry, metadata, extrinsic and way of writing the length", "why_tests_cant": "Universally quantified over extrinsics and registries; the violation needs a type that reads from the start of the buffer.", "anchors": ["extrinsic.go:Process", "extrinsic.go:generateHash", "types/types.go:GenericLookupSource.Process", "types/Float.go:Process"]}
{"id": "C90", "title": "Hashes with unaligned memory access are the hashes of the standard", "statement": "On machines where the package absorbs and copies out through unaligned word access (amd64, 386, ppc64le) every hash gives the same results as the portable code for every sequence of writes, reads, sums, copies and resets, and digests are the sponge outputs of FIPS 202; this rests on the five block sizes of the package, for any other multiple of eight the word groups leave out input.", "quantifier": "for every hash of the package, every reachable state, every message and division into writes", "why_tests_cant": "A wrong word group only shows on blocks of one size and only on some machines.", "anchors": ["pkg/go-ethereum/crypto/sha3/xor_unaligned.go:xorInUnaligned", "pkg/go-ethereum/crypto/sha3/xor_unaligned.go:copyOutUnaligned", "pkg/go-ethereum/crypto/sha3/sha3.go:permute"]}
{"id": "C91", "title": "The amd64 assembly computes the Keccak permutation", "statement": "The assembly function that amd64 builds use instead of the Go code leaves in the state array exactly Keccak-f[1600] of what was there (FIPS 202), whatever the registers and the stack frame held, and so agrees with the portable code.", "quantifier": "for every state array and every content of the registers and of the stack frame", "why_tests_cant": "2^1600 states; the complemented lanes and the parities carried in registers make a wrong instruction show only on some inputs.", "anchors": ["pkg/go-ethereum/crypto/sha3/keccakf_amd64.s:71-320", "pkg/go-ethereum/crypto/sha3/keccakf_amd64.s:323-390", "pkg/go-ethereum/crypto/sha3/keccakf_amd64.go:keccakF1600"]}
{"id": "C92", "title": "Type texts of runtime metadata mean what they say", "statement": "With the built-in types loaded, every Rust type text composed of the names of Substrate's types (integers, hashes, accounts, balances, indices and the structures and enums of the pallets) by Vec<…>, Option<…>, Compact<…>, [T; n] and tuples, in its own capitals or in lower case, is encoded and decoded according to SCALE for the type the text denotes, outside the pallets that have types of their own by those names.", "quantifier": "for every type text of the grammar at any nesting depth, every value, pallet and spec version", "why_tests_cant": "The grammar is infinite and each text passes through several textual rewritings, a table of some 1,500 names and a regular expression; tests try single texts.", "anchors": ["types/registry.go:GetCodecClass", "types/registry.go:getCodecInstant", "types/base.go:buildStruct", "types/override/override.go:54-66"]}
{"id": "C93", "title": "Marks of generic code in type texts are without effect", "statement": "A type text carrying the marks of generic source code at any depth (T::, <T as Trait>::, <T as Config>::, <T>, <T, I>, VecDeque for Vec) is encoded and decoded exactly as the text without them, whatever is registered; so metadata texts such as Vec<(T::AccountId, BalanceOf<T, I>)> have the SCALE encodings of what they mean.", "quantifier": "for every registry, every text of the grammar at any nesting depth, every pallet, spec version, value and buffer", "why_tests_cant": "Stripping is done by plain text replacement in sequence; whether one replacement disturbs another depends on arbitrary neighbouring text at arbitrary depth. Tests try a handful of texts.", "anchors": ["types/convert/convert.go:ConvertType", "types/registry.go:GetCodecClass", "types/base.go:buildStruct"]}
{"id": "C94", "title": "Calls, extrinsics and events follow metadata of versions 9 to 13", "statement": "Once metadata of version 9 to 13 has been read by the library as loaded (or with further types of other names), values of its type texts over the basic types, with the marks of generic code, are coded as the texts mean; a call that it describes is encoded as its two indices followed by the SCALE encodings of its arguments, accounts as destinations included, and these bytes decode to the call with the names and values of its arguments; unsigned extrinsics with it round-trip; and a list of event records decodes to these events.", "quantifier": "for all metadata of versions 9 to 13, all calls and events in it with arguments of such types, all values, any number of events, every pallet", "why_tests_cant": "Tests decode a few calls and events of old live chains. How an argument is coded depends on the text of its type, on the stripping of marks, on all built-in names and on the pallet in which it is decoded.", "anchors": ["types/metadata.go:777-956", "types/v13.go:MetadataV13Decoder.Process", "types/Call.go:Call.Process", "extrinsic.go:ExtrinsicDecoder.Process", "event.go:EventsDecoder.Process", "types/convert/convert.go:ConvertType", "types/types.go:Address.Process"]}
{"id": "C95", "title": "Signed extrinsics follow the metadata", "statement": "Once metadata of version 14 or 15 has been read, an extrinsic signed as the metadata describes is encoded as its length, the version byte, the SCALE encodings of signer, signature, era, nonce, tip and of the extensions that carry data, and the call with its arguments; these bytes decode to the same signer, signature, era, nonce, tip, extensions, call and arguments. The types of signers and signatures are the parameters Address and Signature of the extrinsic type in version 14 and the listed types in version 15.", "quantifier": "for all metadata of versions 14 and 15, all types of signers and signatures, all calls and extensions in it, all values", "why_tests_cant": "Tests encode one or two extrinsics of one live chain. Under which types signer and signature are coded depends on the order in which the types of the metadata are entered, on aliases that replace each other, and on the built-in types of the same names.", "anchors": ["types/scaleInfo.go:240-250", "types/v14.go:MetadataV14Decoder.Process", "types/v15.go:MetadataV15Decoder.Process", "extrinsic.go:ExtrinsicDecoder.Process", "extrinsic.go:GenericExtrinsic.Encode", "types/customType.go:RegCustomTypes"]}
{"id": "C96", "title": "Signed extrinsics of a chain are read", "statement": "Once metadata of version 14 or 15 has been read, the bytes of a signed extrinsic of version 4 or 5, as a node of the chain writes them (length, version, signer, signature, the bytes of every signed extension in the order of the metadata, call index and arguments), are read to their end as the signer, signature, era, nonce, tip, the values of the other extensions that carry data, the call and its arguments.", "quantifier": "for all metadata of versions 14 and 15 with the extrinsic type of sp_runtime, all lists of signed extensions, all calls, all values", "why_tests_cant": "Tests decode extrinsics of a few chains with the extensions of these chains. The reader has a fixed list of extensions that carry data and expects era and nonce before all of them; whether another chain's list of extensions is read correctly depends on the types, names and order in its metadata.", "anchors": ["extrinsic.go:ExtrinsicDecoder.Process", "extrinsic.go:121-174", "extrinsic.go:180-221", "types/v14.go:MetadataV14Decoder.Process", "types/v15.go:MetadataV15Decoder.Process", "types/scaleInfo.go:240-250"]}
{"id": "C97", "title": "Signed extrinsics of chains with old metadata are read", "statement": "Once metadata of version 9 to 13 has been read, the bytes of a signed extrinsic of version 4, as a node of the chain writes them (length, version, signer as an account or an account index, signature of one of three kinds, the bytes of every signed extension in the order of the metadata, call index and arguments), are read to their end as the signer, signature, era, nonce, tip, the fields which the options list for other extensions, the call and its arguments.", "quantifier": "for all metadata of versions 9 to 13, all lists of signed extensions, all options, all calls whose argument types are texts over the basic types, all values", "why_tests_cant": "Tests decode extrinsics of a few chains. Whether a tip is read depends on the version of the metadata and on the extensions it lists, the fields of other extensions depend on the options, and the first byte of the signer decides how many bytes it has; tests cannot try all combinations.", "anchors": ["extrinsic.go:ExtrinsicDecoder.Process", "extrinsic.go:121-174", "types/types.go:Address.Process", "types/types.go:GenericAddress.Process", "types/v13.go:MetadataV13Decoder.Process", "types/metadata.go:MetadataV12Decoder.Process", "types/metadata.go:MetadataV11Decoder.Process"]}
{"id": "C98", "title": "Signed extrinsics are written as chains with old metadata expect them", "statement": "Once metadata of version 9 to 13 has been read, an extrinsic of version 4 whose signer, signature, era, nonce, tip, fields of other extensions, call and arguments are given as they are read (C97) is encoded as exactly the bytes which a node of the chain writes for it.", "quantifier": "for all metadata of versions 9 to 13, all lists of signed extensions, all calls whose argument types are texts over the basic types, all values", "why_tests_cant": "Tests encode one extrinsic with metadata of version 14. Which extensions are written depends on the metadata, the signer is written by another type than it is read with, and metadata before version 12 keeps no extensions; tests of the current version do not see any of this.", "anchors": ["extrinsic.go:GenericExtrinsic.Encode", "extrinsic.go:276-314", "types/types.go:AccountId.Encode", "types/metadata.go:MetadataV12Decoder.Process", "types/v13.go:MetadataV13Decoder.Process"]}
{"id": "C99", "title": "Numbers in hex texts are read as the numbers they stand for", "statement": "utiles.U256 reads a text of hex digits in any letter case, with or without 0x and with or without a sign, as its value and gives nil for every other text; utiles.U256DecoderToBigInt reads the hex text of the little-endian bytes of a number as the number.", "quantifier": "for all texts, all numbers, all widths", "why_tests_cant": "Tests read the index 0 or 1. A width of an odd number of bytes is never tried, and there the middle byte is lost; nil is returned without an error and only fails at the next use.", "anchors": ["utiles/tools.go:U256", "utiles/tools.go:U256DecoderToBigInt", "utiles/tools.go:BytesToBnHex"]}
{"id": "C100", "title": "Calls within calls follow older metadata", "statement": "Once metadata of version 9 to 13 has been read, a call whose arguments are again calls or lists of calls (Call or Proposal, with or without Box, T:: or <T as ...>::), to any depth, is encoded as the indices of each call followed by its arguments, the bytes decode to the call with all calls in it, all calls inside are reported, and unsigned extrinsics with such calls round-trip.", "quantifier": "for all metadata of versions 9 to 13, all calls in it, all depths of nesting, all argument values of the basic types", "why_tests_cant": "Recorded extrinsics have one level of nesting with the few spellings of one chain. A call boxed under a spelling that nobody registered is read but never written, which only a round trip of that spelling shows.", "anchors": ["types/Call.go:Call.Process", "types/Call.go:Call.Encode", "types/types.go:Box.Process", "types/registry.go:226-268", "types/Vectors.go:Vec.Process"]}
{"id": "C101", "title": "Calls within calls follow metadata of versions 14 and 15", "statement": "Once metadata of version 14 or 15 has been read, a call whose arguments are again calls or lists of calls, to any depth, is encoded as the indices of each call followed by its arguments, the bytes decode to the call with all calls in it, all calls inside are reported innermost first, and unsigned extrinsics with such calls round-trip.", "quantifier": "for all metadata of versions 14 and 15 with an outer type of calls, all calls in it, all depths of nesting, all argument values of the covered types", "why_tests_cant": "A recorded batch has one or two levels of nesting. That the name of the outer enum, of lists of it and of the calls' arguments all lead to the same decoder, in whatever order the types are registered, is only visible for all registries.", "anchors": ["types/scaleInfo.go:489-500", "types/scaleInfo.go:ScaleInfo.ProcessSiType", "types/Call.go:Call.Process", "types/Call.go:Call.Encode", "types/Vectors.go:Vec.Process"]}
{"id": "C102", "title": "Types that a chain registers mean what the chain says", "statement": "After the types of a chain have been registered - structures, enums, named values, numbered values and other names for types, possibly for ranges of runtime versions, in one list or several - every type text over these names and those of Substrate is encoded and decoded in each version as the definitions in force in that version say; values, calls, events and extrinsics of metadata of versions 9 to 13 that use these names do too.", "quantifier": "for all lists of definitions whose names are separate from each other in every version, all versions of the runtime, all type texts over the resulting names (also as generic code writes them), all values, all metadata of versions 9 to 13", "why_tests_cant": "Tests load the type file of one chain and decode one recorded block. That a later list, a range of versions, the order of definitions or a name for a composed type never changes what another name stands for can only be seen for all lists.", "anchors": ["types/customType.go:RegCustomTypes", "types/customType.go:regCustomKey", "types/customType.go:44-123", "types/registry.go:RuntimeType.GetCodecClass", "types/registry.go:RuntimeType.specialVersionCodec"]}
{"id": "C103", "title": "Floating-point numbers", "statement": "A floating-point number of four or eight bytes is read where the decoder stands, as the little-endian bits at that place, the decoder moves past it, and the number is written as the same bytes.", "quantifier": "for all 2^32 and 2^64 bit patterns, all buffers and positions, all registries", "why_tests_cant": "A test reads one number from a buffer that holds nothing else, where the start of the buffer and the position of the decoder are the same; that the position is ignored shows in every other buffer.", "anchors": ["types/Float.go:Float64.Process", "types/Float.go:Float32.Process"]}
{"id": "C104", "title": "Digest items of block headers as LogDigest", "statement": "With the type LogDigest every digest item of a block header, and every list of items, is read as the name of its kind and its contents, and items of unknown kinds are refused.", "quantifier": "for all items of the nine kinds with all contents, all lists of them, all positions, all modules and runtime versions, all kinds that do not exist", "why_tests_cant": "Recorded headers hold two or three kinds of items; a kind whose contents are framed differently than the library expects shows only when such an item occurs, and then misreads all that follows.", "anchors": ["types/types.go:LogDigest.Process", "types/types.go:LogDigest.Init", "types/types.go:SealV0.Init", "types/types.go:Consensus.Init", "types/types.go:Seal.Init", "types/types.go:PreRuntime.Init"]}
{"id": "C105", "title": "Block headers", "statement": "A block header read with the type Header gives its parent, number, roots and all items of its digest, and what was read is written as the same bytes.", "quantifier": "for all headers with any number of digest items of all nine kinds and all contents, all positions, all runtime versions", "why_tests_cant": "The type of headers is spread over built-in definitions, registered classes and aliases; tests of headers use one header each. Contents that happen to be text beginning with 0x are too rare for samples.", "anchors": ["source/base/definitions.json:Header", "source/base/definitions.json:DigestItem", "types/registry.go:54-140", "types/Enum.go:Enum.Process", "types/Enum.go:Enum.Encode", "types/Struct.go:Struct.Process"]}
{"id": "C106", "title": "Pre-runtime digests of Babe and Aura", "statement": "The pre-runtime digest of a block is read, with the types RawAuraPreDigest and RawBabePreDigest, as the slot and, for Babe, the index of the authority and the output and proof of its random function.", "quantifier": "for all slots, indices, outputs and proofs, all three kinds of Babe digests, all positions, all modules and runtime versions", "why_tests_cant": "A digest of any content is read without error also when the fields are taken at wrong places; the values look as random as the right ones.", "anchors": ["types/types.go:RawAuraPreDigest.Init", "types/types.go:RawBabePreDigestPrimary.Init", "types/types.go:RawBabePreDigestSecondary.Init", "types/types.go:RawBabePreDigestSecondaryVRF.Init", "source/base/definitions.json:RawBabePreDigest"]}
{"id": "C107", "title": "Definitions in a JSON file are taken as they are written", "statement": "Loading a JSON file of type definitions keeps what each definition says: the text of an alias, the rows of structs and enums, the names of enums and sets, and the numbers of enums whose variants are numbered, so that a byte decodes to the name with that number.", "quantifier": "for all rows, names and numbers, all orders of the members of a definition, every definition in the 54 files in network/, all inputs to decode", "why_tests_cant": "The loader drops the errors of the JSON decoder, so a definition it does not understand is loaded without complaint and fails, or decodes to nothing, only when a value of that type is met.", "anchors": ["source/source.go:LoadTypeRegistry", "types/customType.go:RegCustomTypes", "types/Enum.go:Enum.Process", "types/Set.go:Set.Process"]}
{"id": "C108", "title": "Loading a shipped network does not depend on the order of Go's maps", "statement": "Loading any of the files in network/ on top of the built-in definitions never panics and gives every type text the same class in every run, whatever the order in which Go walks through the maps.", "quantifier": "for all 54 files, all iteration orders of both loops, all type texts, modules and runtime versions", "why_tests_cant": "Go picks a random order in each run; a file with hundreds of definitions has more orders than can be tried, and a wrong class shows up in one run and is gone in the next.", "anchors": ["source/source.go:LoadTypeRegistry", "types/customType.go:RegCustomTypes", "types/customType.go:regCustomKey"]}
{"id": "C109", "title": "Bounded lists have the bytes of lists", "statement": "The type text BoundedVec<T, N> (or WeakBoundedVec<T, N>) decodes and encodes exactly like Vec<T>, whatever the bound N is called and whatever T is.", "quantifier": "for all registries, contexts, element types T, bounds N without a comma, inputs to decode and values to encode", "why_tests_cant": "Tests bound lists of plain types; the element type is cut out of the text at the first place where the comma and the bound occur, so a list of lists with the same bound, or of tuples that end with the bound's name, is the case that fails.", "anchors": ["types/Vectors.go:BoundedVec.Init", "types/Vectors.go:Vec.Process", "types/Vectors.go:Vec.Encode"]}
{"id": "C110", "title": "Aliases mean what their texts mean", "statement": "When a chain defines a name as an alias of a type text, the name decodes and encodes exactly like the text, also when it is written with a type argument that the alias does not mention.", "quantifier": "for all registries, new names, texts that mean something, arguments, inputs to decode and values to encode", "why_tests_cant": "The text is taken apart by a second parser when the alias is registered; what that parser does not know is dropped without an error, and shows only when a value of that type is met.", "anchors": ["types/customType.go:RegCustomTypes", "types/registry.go:GetCodecClass", "types/base.go:buildStruct", "types/Vectors.go:Vec.Init"]}
{"id": "C111", "title": "Primitive types of metadata keep their text", "statement": "After the types of the metadata have been registered, the text of every primitive type of the portable registry is the name of that primitive, whatever the other types are.", "quantifier": "for all portable registries, tables before the registration and recursion depths at which the registration succeeds", "why_tests_cant": "Opaque wrappers and the extrinsic type expand their parameters again; whether a parameter is a primitive type depends on the chain, and no error is reported when it is.", "anchors": ["types/scaleInfo.go:ProcessSiType", "types/scaleInfo.go:expandComposite", "types/scaleInfo.go:dealOneSiType", "types/scaleInfo.go:dealPrimitiveSiType"]}
{"id": "C112", "title": "Types that compare as equal read the same bytes", "statement": "If Eq says that two type names have the same structure, decoding either of them reads the same bytes of every input and refuses the same inputs; types with different structures do not compare as equal.", "quantifier": "for every registry, all pairs of type names and all inputs to decode", "why_tests_cant": "Any nesting of types and all inputs; Compare relies on it to tell whether a call or event of a new runtime must be coded anew.", "anchors": ["types/base.go:Eq", "types/base.go:getTypeStructString", "types/BTreeMap.go:TypeStructString", "types/Bool.go:TypeStructString", "types/Bytes.go:TypeStructString", "types/Call.go:TypeStructString", "types/Compact.go:TypeStructString", "types/Enum.go:TypeStructString", "types/FixedArray.go:TypeStructString", "types/FixedU8.go:TypeStructString", "types/Float.go:TypeStructString", "types/Int.go:TypeStructString", "types/Option.go:TypeStructString", "types/Results.go:TypeStructString", "types/Struct.go:TypeStructString", "types/Uint.go:TypeStructString", "types/Vectors.go:TypeStructString", "types/types.go:TypeStructString", "types/compare.go:MetadataTag.Compare"]}
{"id": "C113", "title": "Compact numbers of declared types do not depend on the order of declarations", "statement": "A compact number whose type is declared in the metadata, such as Compact<Perbill> where struct Perbill(u32), is read as the number it stands for, and as a value of the same Go type wherever the declarations stand in the type table.", "quantifier": "for all metadata type tables in any order, all nestings of declarations and all numbers", "why_tests_cant": "Tests fix one metadata, so they never see the other order; the result type changes between int and uint64 with the position of a declaration.", "anchors": ["types/Compact.go:Compact.Process", "types/Compact.go:CompactU32.Process", "types/scaleInfo.go:ProcessSiType", "types/scaleInfo.go:expandComposite", "types/scaleInfo.go:expandCompact"]}
{"id": "C114", "title": "Metadata of versions 6 to 8 gives the modules and tables it describes", "statement": "For every list of modules and every SCALE encoding of metadata of version 6, 7 or 8 built from them, the decoder of the version gives exactly these modules with names, prefixes, storage entries, calls, events, constants and errors, the call and event tables in which the modules with calls, respectively events, are counted, and nothing else.", "quantifier": "all versions 6..8, all modules, all registries with the usual meaning of the basic texts, all encodings", "why_tests_cant": "No test decodes metadata before version 9; the decoders are exported but look their parts up by names of which some were never entered in the registry.", "anchors": ["types/metadata.go:248-288", "types/metadata.go:308-347", "types/metadata.go:389-431", "types/metadata.go:441-480", "types/metadata.go:496-531", "types/metadata.go:627-666", "types/registry.go:114-129"]}
{"id": "C115", "title": "Decoded values survive being stored as JSON", "statement": "For every type and every value that was decoded from bytes and is encoded to the same bytes: after the value was written as JSON and read back into an interface it is still encoded to these bytes, alone, inside other values, and as part of an extrinsic that is stored as JSON.", "quantifier": "all registries, all types and values of any nesting with texts in UTF-8, all whole numbers, all extrinsics", "why_tests_cant": "Tests encode values either directly from the decoder or from hand-written Go literals; the number types that JSON brings back (float64, text) are tested on a few small numbers only.", "anchors": ["extrinsic.go:83-102", "extrinsic.go:276-325", "types/Uint.go:26-45", "types/Uint.go:139-156", "types/Uint.go:174-240", "types/Int.go:40-69", "types/Compact.go:76-113", "types/base.go:193-220"]}
{"id": "C116", "title": "Only encodings are decoded", "statement": "If the decoder returns a value for a type without reaching the end of the data, then the bytes it took are the SCALE encoding of a value of that type: non-canonical forms of lengths and compact numbers, unknown marks of options, booleans other than 0 and 1, unknown members of enums and the like are refused.", "quantifier": "all registries, all described types of any nesting, all byte strings and offsets, all contexts", "why_tests_cant": "Tests decode valid encodings; the bytes that should be refused are unlimited in number and nested in any type.", "anchors": ["types/Bool.go:7-9", "types/Option.go:13-40", "types/Compact.go:20-73", "types/Compact.go:131-143", "types/Vectors.go:25-50", "types/Enum.go:21-87", "types/Int.go:12-38", "types/scaleBytes/scaleBytes.go:19-36"]}
{"id": "C117", "title": "Decoded values are encoded to the bytes they came from", "statement": "If the decoder returns a value for a type without reaching the end of the data, encoding that value as the same type gives exactly the bytes that were taken.", "quantifier": "all registries, all described types of any nesting, all byte strings and offsets, all contexts", "why_tests_cant": "Tests compare a few fixed byte strings; which values lose information depends on the bytes and on every layer of the type.", "anchors": ["types/Int.go:12-110", "types/Bool.go:7-20", "types/Option.go:13-42", "types/Compact.go:20-143", "types/Vectors.go:25-70", "types/Enum.go:21-140", "types/FixedArray.go:16-76"]}
{"id": "C118", "title": "A decoded signed extrinsic consists of the bytes of its parts", "statement": "When a signed extrinsic is decoded with metadata from version 14 on and no configured extensions, the bytes are, in this order and without gaps, its length if it is there, the version byte, signer, signature, version of the extensions for format 5, era, nonce and the enabled extensions, followed by the call; the returned fields are what these bytes stand for. The reported account does not depend on the order of map iteration when the signer is an enum or an account id.", "quantifier": "all registries, all metadata from version 14 on, all byte strings, all options without configured extensions, both signed formats", "why_tests_cant": "Tests decode recorded extrinsics of a few chains; they cannot rule out that bytes are skipped or read twice for other extensions, signers or eras.", "anchors": ["extrinsic.go:54-63", "extrinsic.go:104-250", "extrinsic.go:122-146", "extrinsic.go:164-215"]}
{"id": "C119", "title": "The decoder takes exactly the byte strings of the lax language", "statement": "For types without compact decimals whose enums of names read unknown members as the empty name, the decoder returns a value from some bytes of the data without reaching its end exactly if value and bytes are in the language that allows every compact form for lengths and every byte for flags, and at least one more byte follows. For all types, bytes in the language are decoded to their value, wherever they stand, unless a compact decimal is the largest of its type or a name is missing.", "quantifier": "all registries, all described types of any nesting, all byte strings and offsets, all contexts", "why_tests_cant": "Acceptance and refusal of all byte strings is an infinite set for every type with a length in it; tests sample both sides.", "anchors": ["types/base.go:158-185", "types/Compact.go:20-143", "types/Bool.go:7-20", "types/Option.go:13-42", "types/Vectors.go:25-70", "types/Enum.go:21-140", "types/FixedArray.go:16-76", "types/Struct.go:11-50"]}
{"id": "C120", "title": "Decoding ends on every input", "statement": "Decoding any type ends, with a value or a panic that can be recovered from, on every byte string. Bytes that are not there are read as set option flags and as member number 0, so a type that contains itself in an option or in the first member of an enum is decoded without end from truncated data. Decoding ends on all data if no type it may come to asks for types without end when bytes are absent; every type that returns a value from absent bytes has this property, and so have all built-in definitions.", "quantifier": "all registries, all types of any nesting, all byte strings and offsets, all call metadata; all orders in which the built-in definitions are loaded", "why_tests_cant": "That a recursive decoder terminates on all data is not a finite check; a fuzzer finds single types but proves nothing about the rest.", "anchors": ["types/base.go:158-187", "types/Option.go:13-22", "types/Enum.go:32-75", "types/Struct.go:17-25", "types/Results.go:14-27", "types/Vectors.go:25-70", "types/Call.go:14-31", "types/types.go:408-416", "source/base.go:1-6", "types/scaleBytes/scaleBytes.go:19-28"]}
{"id": "C121", "title": "Lists in decoded values are no longer than the data", "statement": "No list in a decoded value has more elements than the data have bytes, so the memory for a value is bounded by the size of its input. The length alone is enough, however: elements are read from absent bytes as often as the length says, so four bytes give a list of 524288 truth values. On every input lists have at most 524288 elements or as many as an array of the type; with data left over and elements that have at least one byte they have at most as many elements as bytes were taken.", "quantifier": "all registries, all types of any nesting, all byte strings and positions, all call metadata; all built-in definitions in all loading orders", "why_tests_cant": "The bound is on values of unbounded depth for all types and inputs; tests with small data do not come near the limit.", "anchors": ["types/Vectors.go:25-36", "types/BTreeMap.go:12-26", "types/FixedArray.go:25-44", "types/base.go:158-187", "types/scaleBytes/scaleBytes.go:19-28"]}
{"id": "C122", "title": "Decoding extrinsics and events ends, and events take bytes", "statement": "Decoding an extrinsic or a list of events comes to a result or a refusal on every input, and a list of events has at most a third as many events as the data have bytes, whatever number it announces. The first part fails for a metadata with a call argument that contains itself in an option: an extrinsic that stops before the argument is read without end. It holds when every type of the signed part, of the extensions and of the arguments, with all types inside, reads absent bytes in finitely many steps.", "quantifier": "all registries, metadata, options, byte strings; calls nested to any depth; any announced number of events", "why_tests_cant": "Termination for all inputs and a bound for all announced counts cannot be observed by running finitely many cases.", "anchors": ["extrinsic.go:104-250", "event.go:32-118", "types/Call.go:Process", "types/v13.go:64-69", "types/v14.go:97-102"]}
{"id": "C123", "title": "Naming and registering the types of metadata ends", "statement": "Giving every type of a metadata registry its text, and registering the composite types under their names, comes to a result or a panic and does not run for ever. This fails: a type that is a sequence of itself, and two types with one field that hold each other, are called for without end, which in Go exhausts the stack. It holds for every registry in which no type's text is made from itself, where a named struct or enum stands for itself by its name inside other types. A registry with sequences, compacts, arrays or tuples that are written through each other is never returned.", "quantifier": "all registries of types, all ids, all states of the tables", "why_tests_cant": "Recursion over an arbitrary graph of types cannot be exercised for all graphs; known metadata have no such cycles.", "anchors": ["types/scaleInfo.go:145-179", "types/scaleInfo.go:239-346", "types/scaleInfo.go:446-509"]}
{"id": "C124", "title": "Reading metadata ends", "statement": "Reading any bytes as V14 or V15 metadata comes to an end: with the modules and tables or with a panic, which a caller can recover from. This fails: the seven bytes 04 00 00 00 02 00 00, a registry with one type that is a sequence of itself, exhaust the stack, which no recover catches; so does every registry whose types are never given texts, whatever follows it. It holds on all other data as long as entering the types of the registry leaves alone the names by which the rest of the metadata are read; in particular on every registry whose types are entered under names of their own, followed by any bytes.", "quantifier": "all data, all positions, all registries of types, everything that may follow the registry", "why_tests_cant": "Termination on all byte strings is not observable by running finitely many; real metadata have no such cycles.", "anchors": ["types/v14.go:28-171", "types/v15.go:24-180", "types/scaleInfo.go:145-179", "metadata.go:22-38"]}
{"id": "C125", "title": "Reading metadata without a registry, and the registry alone, ends", "statement": "With the library as it starts, PortableRegistry comes to a result, an error or a panic on all data, and so does Process on all data that are not metadata of version 14 or 15: data without the magic bytes, metadata of unknown versions and metadata of versions 9 to 13, whatever lists they announce. On metadata of version 14 or 15 Process ends exactly when reading what is behind the version does (C124); from the twelve bytes meta 0e 04 00 00 00 02 00 00 it never returns, although PortableRegistry does.", "quantifier": "all data, all versions, all tables in which the texts of old metadata have their usual meaning", "why_tests_cant": "Termination on all byte strings is not observable by running finitely many; lists announce up to 524288 elements and nest.", "anchors": ["metadata.go:22-62", "types/metadata.go:777-956", "types/metadata.go:543-617", "types/v13.go:36-81"]}
{"id": "C126", "title": "Encoding any value ends", "statement": "EncodeWithOpt comes to a result or a panic for every type text and every value, whatever types are registered. (False of the code. Encode methods call EncodeWithOpt for the parts of the value, of which there are finitely many; only Option.Encode hands on the value it was given, to the type inside. So encoding ends on all values exactly if no text stands for an option of an option of … without end. The built-in types are like that, for all texts, known or not. But a type of a chain like struct Link(Option<Box<Link>>) is registered as an option of itself: its values are decoded, and every one but the absent value is encoded without end, which exhausts the stack and ends the process.)", "quantifier": "all type texts, all values of any nesting, all registries, all metadata", "why_tests_cant": "A value can be nested to any depth and the texts are unbounded in number; a loop through options shows only for types that no test registers.", "anchors": ["types/base.go:193-220", "types/Option.go:24-38", "types/scaleInfo.go:256-273", "types/scaleInfo.go:453-457", "types/customType.go:69-87"]}
{"id": "C127", "title": "Encoding a value does not depend on the order of Go's maps", "statement": "Values are given to the encoder with map[string]interface{} in them, and Go walks maps in an order that differs from run to run. The outcome of EncodeWithOpt (the text or the panic) is the same in all orders. (False of the code. Enum.Encode takes the first member met that names a variant and Data.Encode the first member met, so {\"Small\":1,\"Large\":2} is encoded to 0001 in one run and to 010200 in another, without an error. If no map that is encoded as an enum names two variants, and none that is encoded as identity data has two members, the outcome does not depend on the orders, at any depth; struct members and members that name nothing are without effect. A map that names two variants always has two encodings.)", "quantifier": "all type texts, all registries, all metadata, all values of any nesting, all orders of all maps in them", "why_tests_cant": "Go chooses the order at random, so a test sees one order per run and passes or fails by chance.", "anchors": ["types/Enum.go:77-129", "types/types.go:374-400", "utiles/tools.go:165-171", "types/Struct.go:27-35", "types/Results.go:29-41", "types/base.go:193-220"]}
{"id": "C128", "title": "What the encoder returns is the hex text of whole bytes", "statement": "Whatever EncodeWithOpt returns is lower-case hex text of whole bytes, so it can be turned into bytes and joined with other encodings. (False of the code: AccountId.Encode and Era.Encode return the text they are given, H256.Encode and the 0x branches of Bytes, HexBytes, FixedU8, FixedArray and U256 pass it on, so an account id given as an SS58 address or as \"hello\" is returned as text that is no hex, without an error, and a text of odd length shifts all that follows by half a byte. If the texts handed on like this are hex themselves, at any depth, the result is the hex text of whole bytes, for every type text and value; integers need no condition.)", "quantifier": "all type texts, all registries, all metadata with hex call indices, all values of any nesting", "why_tests_cant": "The texts that break it are ordinary ones, such as SS58 addresses, and the wrong result is not noticed by the encoder.", "anchors": ["types/types.go:66-68", "types/types.go:103-105", "types/types.go:186-188", "types/FixedU8.go:24-38", "types/Bytes.go:21-34", "types/Bytes.go:44-52", "types/base.go:193-220"]}
{"id": "C129", "title": "Types of fixed width are read and written with exactly that width", "statement": "Integers, truth values, hashes, accounts, byte arrays, and structs and arrays of them have a width that their type alone decides; values of such a type are written with exactly that many bytes, and reading them takes exactly that many and cannot fail when there are that many. (Reading: proved, for digests of at least 20 bytes at Ethereum addresses. Writing is false of the code: H160, H256, H512, AccountId, EthereumAddress, [u8; n] given as text and U256 given as text are written with the length they are given with, so {\"col1\":\"0x01\",\"col2\":7} as (H256, u8) gives two bytes instead of 33, without an error. If what is given at these places has the size of its type, the width is right, at any depth.)", "quantifier": "all type texts of fixed width at any nesting, all registries, all contexts, all values, all buffers below 2^63 bytes and positions with enough bytes left", "why_tests_cant": "A wrong width shifts all that follows; tests encode values that were decoded before, which have the right size.", "anchors": ["types/types.go:66-68", "types/types.go:186-188", "types/FixedU8.go:24-38", "types/Uint.go:209-240", "types/Struct.go:18-35", "types/FixedArray.go:25-76", "types/base.go:158-220"]}
{"id": "C130", "title": "A decoded extrinsic is given as a map with all its fields", "statement": "ToMap gives every decoded extrinsic as a map that has its eighteen fields under their JSON names: texts, flags, lists and maps as they are, integers as numbers. (False of the code: when the JSON step fails nil is returned without an error, so an extrinsic with a floating-point parameter that is not finite is given as the nil map. Exactly these extrinsics are; all others have all fields, and integers below 2^53 come back exactly. Nonces from 2^53 on are not told apart.)", "quantifier": "all registries, metadata, options and inputs of the decoder, all hashes and type names of parameters, all values at any depth", "why_tests_cant": "Tests read single fields of few extrinsics; none has a number that is not finite or an integer beyond 2^53 in the map.", "anchors": ["extrinsic.go:83-102", "extrinsic.go:316-325"]}
{"id": "C131", "title": "Loading definitions again changes nothing", "statement": "When the same definitions are registered a second time, in whatever order, every type text is looked up, decoded and encoded as after the first time. (False of the code: an alias of a name of the same batch may be resolved by the second registration only, or differently; the shipped files of crab, darwinia, pangolin and sora have such a name. It holds for definitions and aliases that do not depend on the rest of the batch, and for the other fifty shipped files, any number of times. The lists of versioned definitions grow by the whole file each time.)", "quantifier": "all batches of definitions of the described form in all orders, all earlier tables; all shipped network files over the built-in definitions, all orders of Go's maps, any number of repetitions, all type texts, modules and versions", "why_tests_cant": "The tables are global and survive between tests; no test loads a file twice and compares.", "anchors": ["types/customType.go:23-150", "types/customType.go:152-179", "source/source.go:20-46"]}
{"id": "C132", "title": "Encoding ends with the shipped definitions of any chains", "statement": "After any files of network/ have been loaded over the built-in definitions, one after the other in any sequence, each any number of times and with Go's map order differing each time, encoding any value by any type text, known or not, ends, by returning or by panicking: no text stands for options without end.", "quantifier": "all finite sequences of shipped network files, all orders of Go's maps in each loading; all type texts, values, spec versions and metadata; all interpretations of the parts outside the model whose values have no endless parts", "why_tests_cant": "The tables are global and aliases are resolved by what earlier files left there, so the combinations of 54 files are unbounded; an endless encoding exhausts the stack of the process.", "anchors": ["types/customType.go:23-150", "types/base.go:193-220", "types/Option.go:24-38", "source/source.go:20-46"]}
{"id": "C133", "title": "Registering definitions fails exactly for ill-formed ones", "statement": "A batch of definitions that are not read from metadata is registered without a panic, whatever is registered already and in whatever order Go walks through the map, exactly if every alias has a text that is not empty after the marks of generic code are removed and every row of a struct or enum has a name and a type; otherwise registration panics in every order. (The empty text must not itself be a name.) All files of network/ are of this kind, so any of them can be loaded one after the other over any tables.", "quantifier": "all batches without definitions from metadata, all orders, all earlier tables; all shipped network files and all sequences of them", "why_tests_cant": "Whether an alias is resolved by the tables, by the batch or by its text depends on what was loaded before and on the map order, so a test sees one of many paths.", "anchors": ["types/customType.go:23-150", "types/customType.go:13-21", "types/customType.go:152-179", "source/source.go:20-46"]}
{"id": "C134", "title": "Metadata is read alike after loading any network definitions", "statement": "Whatever files of network/ have been loaded over the built-in definitions, in any sequence, any number of times and in any map orders, every text by which the decoder of metadata reads its parts is resolved as with the built-in definitions alone. So metadata of versions 9 to 13 still gives exactly the modules, calls, events, storage entries and constants it describes, metadata of versions 14 and 15 still gives the types it begins with, the processors of versions 6 to 8 behave as before, and whatever does not begin with the magic bytes is still reported as no metadata.", "quantifier": "all sequences of shipped network files and map orders, all spec versions, all metadata of the versions named", "why_tests_cant": "Custom definitions and the decoder's own part types share one global table; a file may redefine such a name (chainx redefines String), and whether that harms depends on the sequence and order of loading.", "anchors": ["source/source.go:20-46", "types/customType.go:23-150", "metadata.go:22-62", "network/chainx.json:499-499"]}
{"id": "C135", "title": "Loading shipped networks changes 86 built-in names and no others", "statement": "Whatever files of network/ are loaded over the built-in definitions, in any sequence, any number of times and in any map orders, every built-in type name keeps its class and stays without version ranges, except for 86 names; each of these is changed by some sequence of files. A type that is looked up under unchanged or untouched names only, with all types it leads to, is decoded and encoded on every input as before. For the others earlier networks matter: BalanceOf of acala takes 16 bytes, but 8 once equilibrium has been loaded.", "quantifier": "all sequences of the 54 shipped files and all map orders, all built-in names, all types, inputs and values", "why_tests_cant": "The registry is global and nothing is removed from it short of Clean, so what a program decodes depends on every file it has loaded before; the sequences are without number.", "anchors": ["source/source.go:20-46", "types/customType.go:23-150", "types/registry.go:42-73", "network/equilibrium.json:184-243"]}
{"id": "C136", "title": "Clean makes the registry as good as new", "statement": "Clean never panics, whatever has been registered before and in whatever order Go walks through its maps, and leaves exactly the tables of a program that has just started: no version range, no type of metadata and no custom definition survives. So whatever is registered afterwards is registered as in a new program, and a shipped network file (other than the four whose result depends on map order) loaded after it gives every type text the class, and every decoding the result, that it has in a program that loads only this file.", "quantifier": "all earlier states of the registry, all map orders, all later batches of definitions, all type texts and inputs", "why_tests_cant": "The states a registry can be in before Clean are without number, and a table that is forgotten shows only for names that were registered before.", "anchors": ["types/registry.go:42-52", "types/registry.go:54-191"]}
