# Design: a Lean 4 model of ieee80211-rs

The subject is the crate in `/repo` (ieee80211 0.5.9).  The Lean project in
`/verif/lean` models its parsing, serialising and key-handling code and proves
the properties listed in `properties.jsonl`.  This file says what is modelled,
what is trusted, and, for each property, how it is proved or why it is not.

## Trusted base

* Lean 4.33.0's kernel.
* Axioms: each property theorem depends on at most `propext`,
  `Classical.choice` and `Quot.sound`.  No axiom is added, and neither `sorry`,
  `native_decide` nor `bv_decide` is used.
* The transcription of the Rust source into Lean definitions.  Every model
  definition cites the file and lines it transcribes.
* The semantics of the crates the code calls, which are not in `/repo` and were
  written from knowledge of these crates (see "Dependencies").

## Modelling conventions

* `Res α` is `ok a`, `err e` or `panic`.  A Rust `Result` is `ok`/`err`;
  slicing out of bounds, `unwrap` on `None`/`Err`, arithmetic overflow, failed
  `assert!` and a bit-field setter given a value that does not fit are `panic`.
  This is the behaviour of a build with overflow checks and debug assertions; the
  functions that a release build compiles differently are in `Model/Release.lean` (C74).
  Error values are an enumeration without payload (offsets and messages are dropped).
* A byte is `BitVec 8`, a slice is a `List` of bytes, `u16`/`u32`/`u64` are
  `BitVec n`; `usize` is `Nat` (no overflow on additions of lengths; a
  subtraction below zero is `panic`).
* `try_from_ctx` is a function from the bytes to `Res (value × consumed)`.  Its
  body is written in a reader monad that threads the local `offset`.
* `try_into_ctx` is a function from the whole destination buffer to
  `Res (new buffer × written)`; its body is in a writer monad with the same
  buffer/offset state.  When an error is returned the buffer contents are not modelled, except in
  `Model/InPlace.lean` (C75) and, with the caller's offset, `Model/Offset.lean` (C79); for dynamic management
  frames they are arbitrary (`Model/Attempt.lean`, C82).
* Lifetimes, borrow checking, derived formatting (`Debug`, `defmt`) and
  `const`-ness are not modelled; derived hashing and comparison are modelled where it
  matters (TIM, RSN and rates elements, `Model/Hash.lean`).  Generic containers are modelled by a type
  class giving the write and measure functions.
* A native-endian read or write is modelled as little-endian; the functions that
  contain one are modelled for both kinds of machine in `Model/ByteOrder.lean` (C71).

## Dependencies (not in /repo, semantics assumed)

* `scroll` 0.13: `gread`/`gwrite`/`pread`/`pwrite`, integers, slices, arrays,
  `StrCtx::Length`.  Whether an offset equal to the buffer length is accepted
  for a zero-length item is left open: it is a Boolean parameter
  (`ScrollRule.strict`) of the whole model.  Theorems hold for both values, and
  say so where the outcome depends on it.
* `tlv-rs`: a TLV is type byte, length byte, payload; the length is the measured
  payload size and a payload measured above 255 is an error.
* `bitfield-struct`: fields are allocated from the least significant bit;
  setters panic when the value does not fit (`debug_assert!`; a release build
  cuts off the bits that do not fit); `new()` sets declared defaults;
  a field without one starts as zero bits, whatever the default of its type.
* `macro-bits`: `bit!`, `check_bit!`, `set_bit!`, `serializable_enum!` (a listed
  code maps to its variant, any other to `Unknown(code)`).
* `mac-parser`: a MAC address is six bytes in order.
* `llc-rs`: SNAP header is `aa aa 03`, OUI, ethertype (big-endian), payload.
* `const_soft_float`: the product is that of IEEE 754 binary32, rounded to nearest
  with ties to even.
* An array `[u8; N]` that does not fit is refused with `TooBig` as a whole; scroll
  may read it byte by byte and answer `BadOffset`.  No theorem tells these apart.
* CRC-32, HMAC-SHA1, AES key wrap, PBKDF2 are uninterpreted functions
  (parameters); where a theorem needs a law (output length, unwrap inverts
  wrap) it is an explicit hypothesis.  `Verif/Spec/Crc.lean`, `Aes.lean`,
  `KeyWrap.lean` and `Sha1.lean` define these functions as their standards do,
  for C59, C60 and the tests; the law of the key wrap is proved of them.

## Layout

* `Verif/Basic` core types and the reader/writer monads with their lemmas
* `Verif/Model/*` transcription of the code
* `Verif/Spec/*` independent statements: wire layouts, tables, predicates
* `Verif/Lemmas/*` helper lemmas
* `Verif/Props/*` the property theorems, named after the property
* `Verif/Tests/*` the crate's own tests and examples restated on the model and
  checked by evaluation; they test the transcription and prove no property

## Properties

| id | modelled | approach |
|----|----------|----------|
| C01 | `FrameType` and subtype enums | exhaustive over 64 patterns by `decide`; values by cases |
| C02 | all `serializable_enum!`, RSN selectors | generic lemma on a code table + finite check of each table |
| C03 | all `#[bitfield]` layouts | generic get/set lemmas on `BitVec` + layout tables checked against the standard |
| C04 | `AssociationID` | arithmetic over all 16-bit values |
| C05 | `strip_and_validate_fcs`, `attach_fcs` | for any CRC; short input panics: negation proved |
| C06 | element chain, wrapped elements, raw iteration | induction on the chain |
| C07 | lookup functions | refinement of a list `filterMap` spec |
| C08 | raw iteration | induction on the length |
| C09 | measure/write of every type | one theorem per type; several are violated, negations proved |
| C10 | SSID / mesh ID | round trip |
| C11 | rates elements | induction on the list |
| C12 | fixed-size elements | both directions |
| C13 | HT capabilities, MCS set | round trip; consumed > input: negation proved |
| C14 | HT operation | violated: witness, plus the exact partial statement |
| C15 | VHT MCS map | bits; building panics: witness |
| C16 | TIM | refinement of a set; violated for `new_static`: witnesses + partial |
| C17 | RSN element | round trip over lists; PMKID part violated: witness |
| C18 | RSN tables | finite tables; optional feature violated: witness |
| C19 | mesh peering | round trip; panic above 24 bytes: witness |
| C20 | vendor elements | round trip, prefix match |
| C21 | management header | layout + round trip |
| C22 | management bodies | layout + round trip |
| C23 | management frames | composition of C05, C21, C22 |
| C24 | `GenericFrame` | agreement with typed parse |
| C25 | matching | mutual exclusion |
| C26 | control frames | round trip; Ack size violated: witness |
| C27 | data header | presence rules, round trip |
| C28 | address roles | spec table; `bssid_mut` violated: witness |
| C29 | builder | type states as data; violations: witnesses |
| C30 | A-MSDU | list round trip for padded subframes; violations: witnesses |
| C31 | crypto header | round trip |
| C32 | crypto wrapper | round trip; panics: witnesses |
| C33 | Michael | refinement of a word-list specification |
| C34 | PRF | induction on blocks, any HMAC |
| C35 | PTK symmetry | antisymmetry of the lexicographic order |
| C36 | PTK partition | list arithmetic |
| C37 | EAPOL key frame | layout + round trip |
| C38 | EAPOL ranges | offsets into the layout |
| C39 | protected EAPOL frames | any HMAC/AES-KW with inverse law |
| C40 | MIC check | case analysis of the decision logic |
| C41 | every parser | `Safe` predicate, compositional; violations: witnesses |
| C42 | fixed-layout parsers | compositional `Stable` predicate |
| C43 | every parser | same `Safe` predicate |
| C44 | `ReadIterator` | induction; `len` violated: witness |
| C45 | `DynamicManagementFrame` | induction on added elements |
| C46 | MCS set indices | bit lemma; index 76 violated: witness |
| C47 | encoded rates | arithmetic |
| C48 | action bodies | round trip |
| C49 | data frames | composition |
| C50 | PMKID / PSK inputs | definitional for any HMAC |
| C51 | HT MCS Tx predicates | exact value computed; violated in all three: witnesses |
| C52 | data subtype predicates, type matching | finite tables; reserved subtype 13 violated: witness |
| C53 | `is_eapol_key_frame` | exact condition on the bytes; only-key-frames violated: witness |
| C54 | every element type in any element area | composition of C06, C07 and the per-type round trips |
| C55 | `PartialEq` between containers | iterators abstracted to their items; equivalence; violations: witnesses |
| C56 | errors of `serialize_eapol_data_frame` and `deserialize_eapol_data_frame` | one theorem for each refusal and its cause; violations: panics and a misleading error, for all inputs of that kind |
| C57 | accessors of management bodies; beacon from name to name | composition of C07, C10, C22, C23 and C54 |
| C58 | containers of received bytes, views of payloads, VHT maps, the group-traffic TIM and sizes reported for types | the writer emits the input; views stated against input positions |
| C59 | CRC-32 as a bit-serial division in transmission order (`Spec/Crc.lean`), a burst as a change of at most 32 neighbouring bits | injectivity of 32 steps of the register, invariance outside the burst |
| C60 | AES-128 by section of FIPS 197 (`Spec/Aes.lean`), RFC 3394 and RFC 5649 as passes over registers (`Spec/KeyWrap.lean`) | each round step is inverted (field identities over all 256 bytes, linearity of the column mix), then each pass; lifted through C39 and C40 |
| C61 | binary32 as rounding of rationals to 24 significant bits, ties to even | rounding is monotone, fixes short numbers and has a bounded error; then arithmetic; rates of 128 and more violated: witness |
| C62 | numbers found by scanning a text for runs of digits; lists as texts between brackets separated by commas | value of a numeral by induction; digits, separators and names told apart by character class; violated for PMKIDs with leading zeros and for logged bitmaps |
| C63 | elements without contents, numbered as the padding bytes | C35, C36, C06, C39, C60 and C07 joined; the elements of padded key data are those sent followed by empty ones; violated for the SSID, which the zeros of the padding imitate |
| C64 | any hasher, as a state with a step for each call | same hash under every hasher is the same sequence of calls; with C55, equal values are the same value for lists, received maps and maps made by `new_static` and `tim_bitmap!`; violated for received RSN elements with left over PMKID bytes and for TIM bitmaps put together by hand |
| C65 | kinds of frames which are apart; an arm as a type, its parser and a block; what it is for frames of a kind to arrive | C22, C23, C25, C48 and C49 joined: what is written is of the kind that was written, so no arm before takes it; partial for the header and code conditions of C21 and C22 and the empty last element of the strict rule |
| C66 | the payload bit of the subtype number | C39, C53 and C65 joined; what is accepted is inverted down to the ethertype behind the header; violated for subtypes without payload, which are deserialised but not recognised |
| C67 | none: iff statements over the conditions of the earlier round trips | necessity by inverting the parsers; RSN in `c17_round_trip_exact` |
| C68 | none: end-to-end composition of C27–C32, C49, C65 | `Writes`: the writer puts some string with a property into every large enough buffer (subframe padding is whatever was in the buffer) |
| C69 | `firstByte` (version zero, type and subtype), `SameAid` of C22 | equivalences: the output is the input exactly if …; the four proved violations are the inputs that fail the condition |
| C70 | `ElementsOf`, `contents`, `tlv` of C06/C07 | statements about pairs of inputs: same matching elements, one element inserted, changed or cut off |
| C71 | `swap16` (two bytes exchanged), wire forms in the order of the machine | the functions with native-order accesses, with the byte order as a parameter; the rest of the crate names the byte order or handles single bytes |
| C72 | the order of the four messages (12.7.6), written as a program over the crate's functions | C39, C40, C60, C63 composed; the sequence itself is not in the crate; replay counters are left to the caller |
| C73 | two runs of the same writer on buffers of the same length (`SameRun`), a list of everything that can be written (`Sends`) | everything but A-MSDUs; for these an exact condition and exactly what is sent |
| C74 | the release build keeps what the debug build returns (`Keeps`) and does not go on where it stops (`Stops`) | `Keeps` for every function with a check; `Stops` for frames received; for rates, IDs, data subtypes, VHT maps and TIMs exactly what the release build makes of a value the checks refuse |
| C75 | the EAPOL functions with the buffer they leave behind (`Model/InPlace.lean`) | refinement of the transcription without buffer; the buffer afterwards in pieces; errors after decryption and a missing key: negations proved |
| C76 | one writer on two buffers (`Settled`), a list of everything that can be written (`Writing`) | the bytes, their number and the size from which on they fit; no panic for the values marked safe; the other values: negations proved |
| C77 | the station's program (`told`, `givenAid`) and the access point's (`beaconWith`, `responseWith`) | the numbers found are exactly those announced for bytes and macros, but for one; `new_static`: exactly which wrong stations are told; both negations proved |
| C78 | the meaning of the two kinds of errors (`Short`, `Verdict`) and the number of bytes each parser needs (`BodyNeeds`, `FieldsNeed`) | both directions for all parsers of frames and bodies without FCS; EAPOL waits for ever and `GenericFrame::new` calls cut frames invalid, proved |
| C79 | `KeepsOffset`, looking for one of several OUIs (`firstOui`) | where the two helpers leave offset and buffer, in every case; both move the offset when they fail, proved |
| C80 | `TotalOrder`, order of the numbers (`OrderedBy`) | all derived orders are total; MIC states and windows are in order; packet numbers compare from the lowest byte, version 0 is above the named ones, replay counters come second: negations proved |
| C81 | written and read back (`Survives`), defaults of the field types | default elements, headers and action bodies survive; bodies without elements and OWE under the lax rule only; the default mesh peering confirmation, data frame and bitmap do not; HT power save and VHT MCS maps claim more than the defaults of their types: negations proved |
| C82 | the program that goes on after a failure (`tryAll`), first fit (`firstFit`), any residue of a failing writer | the same bytes as had the failing steps not been made, from the independence of C73; exact bytes and exactly which steps succeed |
| C83 | a decoder of RSN bytes of its own (`rsnView`), the table of suite roles and the rule for management frame protection | bytes of each constant in every buffer, then a decision over the decoded fields |
| C84 | the standard's table of integrity and key wrap algorithms (`protectionTable`), AES-CMAC by RFC 4493 for the concrete cases | `c39_serialise`, `c39_deserialise` and `c40_mismatch_partial`, with the MIC of an arbitrary algorithm beside that of HMAC-SHA-1 |
| C85 | the table of suites and hashes (`ptkHashes`), PRF and KDF over concrete SHA-1, SHA-256 and SHA-384 (`Spec/Sha1.lean`, `Spec/Sha2.lean`) | `c35_input` and `c36_partition`; the expansion block by block equals the model's; concrete cases by kernel evaluation |
| C86 | the exchange of 12.7.7 (`groupHandshake`), a supplicant with the counter rule of 12.7.2 (`Supplicant.receive`), schedules of deliveries (`Delivered`, `fresh`) | `c63_protected_partial` and C72's `message_exchange`; induction over the deliveries; `c40_accepted` for authenticity; forged frames by `c39_deserialise` |
| C87 | a transmission, the bits of its HT-SIG by Figure 19-6 (`htSigBit`) and the streams of an MCS (`spatialStreams`) | the layout theorem of C03 and bit by bit |
| C88 | `rscOctets`, `rscField`, `rscReversed`, `RscSame`, `NotReplayed` (octets of the Key RSC field, least significant first) | the value read is the packet number with its octets reversed; equal iff the number is a palindrome; consequences for the replay check |
| C89 | the supplicant's check of the third message (`goesOn`): MIC flag, RSN element of the key data compared with that of the beacon; payload of an RSN element by 9.4.2.24 (`rsnWire 1`) | C63 for the message, C65 for the beacon, C55 for the comparison, C17 for what bytes an element was parsed from |
| C90 | a receiver with one replay counter for each key (`Receiver.take`), by 12.5.2.4.4 | C68 for one frame, induction on the sequence; invariant `Once` for arbitrary bytes |
| C91 | the peering protocol as a state machine (`Peering.take`) over messages, by 14.3 and 14.4 without timers and holding state; `PeerWorld.ideal` runs it without frames | simulation: one message by C19, C54, C22, C65; invariant by induction on the moves |
| C92 | meaning of an octet by 9.4.2.3 (`claimOf`: rate, required or not, or a BSS membership selector), decision to join (`canJoin`) | C54 and C65 for the beacon, C11 for the iterators; all 256 octets by `decide +kernel` for the accessors |
| C93 | the rules of 10.3.2.14 and 10.5 for repeated and joined pieces (`Joiner.take`), messages and their pieces (`Parcel.pieces`), completeness of a message (`WholeOf`) | C68 for one frame, C03 for the fields, C49 for arbitrary bytes; induction over the pieces of one source after splitting the history by source |
| C94 | messages (`Packet`), steps and ways (`Link`, `Hop`, `route`), table 9-30 (`addressTable` of C28), layout of an A-MSDU (`SubframesOf` of C30) | C68 for a frame, C28 and C29 for the addresses, C30 for the subframes, C49 for arbitrary bytes; induction over the way |
| C95 | names of any octets (`IsNetworkName`, 9.4.2.2), the rule for answers (`asksFor`, 11.1.4.3.4), what is on the air (`OnAir`) | C65 for a frame, C57 for the name, C23 and C25 for arbitrary bytes (`match_mgmt`); induction over the frames |
| C96 | the code of 12.5.2.3.2 over addresses, priority and data (`codeOf`, with `michaelBytes` of C33), a change of one word (`OneWord`) | C33 for code and changes (`c33_one_word`), C68 for a frame, C93 for pieces and arbitrary bytes |
| C97 | letters with their fixed fields (`Letter`), the access point's table and answers and the station's states by 11.3 (`serve`, `Standing.after`), what may happen (`Happening`), agreement (`World.Sound`) | C22, C23, C65 for one letter, `match_mgmt_each` (C95) for arbitrary bytes, induction over events; the run over the air is compared with a run where letters are handed over |
| C98 | attempts with losses and foreign frames (`Attempted`, `ElseToReceiver`, `ElseToSender`), messages and the list delivered (`DividedMessage`, `Joiner.delivered`); the rules of sender and receiver are a specification by 10.3 | C93 for pieces and joining, C26 for acknowledgements, C24 and C25 for arbitrary bytes, C59 for damaged frames; an invariant over attempts |
| C99 | networks as lists of elements and what they say (`OweCell`, `OweCell.said`, `IsTwin`); the station's decisions are a specification (`learn`, `Learned.leads`) | C95 for frames that arrive, C54 and C20 for lookups among other elements, C17 for suites |
| C100 | mailboxes into which messages are put and from which stations take (`Mailboxes.post`, `fetch`, `after`), without beacons, bitmaps or frames; access point and station are a specification (`SleepyCell.interval`, `ask`) | C77 for who is told, C24 for polls, C68 for data frames; refinement by induction over intervals and questions |
| C101 | octets of the three elements combined by Table 11-23 (`standardPlan`, `widthOf`), plans with their standard elements (`planElements`) | a station made of the lookups and fields of the crate decides exactly this for all element bytes (`c101_exact`); whole frames as in C95; HT operation written by the crate has a zero octet where the width is |
| C102 | numbers of beacons and multiples of the period (`NextDtim`, `beaconTime`), octets of the TIM (`dtimSaid`) | an access point that beacons for ever and a station that naps, both made of functions of the crate; the naps are followed by induction (`c102_naps_partial`); the clocks agree and beacons are not late |
| C103 | the rule of 10.3.2.4 on octets 2 to 9 (`navRule`), the end of the exchange as a sum of times | three stations made of functions of the crate; `exchange` is the two that talk, `keepNavs` the one that listens, for every sublist of the frames; propagation and response timeouts are left out |
| C104 | who can know what (`informed`), the greatest clock among those | any number of stations made of functions of the crate (`AdHoc.run`), followed by induction over the events; frames take no time, clocks run equally fast and differ by a fixed amount |
| C105 | what was last heard of a station (`dozeSaid`), the messages for it (`dozeFor`) | access point and stations made of functions of the crate (`Dozers.run`), an invariant of all events; frames of the access point are not lost |
| C106 | the octets of the mesh profile, formation info and capability (`standardNeighbour`), the best of a list (`BestOffer`) | station made of functions of the crate (`choosePeer`), for arbitrary elements and lists of stations |
| C107 | the identifier of a key in octets (`keyName`), the first remembered key that is listed (`remembered`) | access point made of functions of the crate (`welcome`), for arbitrary requests and bytes |
| C108 | protection of management frames by Table 12-5 (`mfpUsed`), the first suite that the other side takes (`FirstIn`), the link that should be (`AgreedLink`), the octets of an RSN element (`Heard.SaidBy`) | station and access point made of functions of the crate (`hearBeacon`, `hearRequest`), for arbitrary beacons, requests and bytes |
| C109 | the BSS load element in octets (`loadIn`), the latest word of an access point (`Latest`), the best with enough capacity (`BestRoom`) | station made of functions of the crate (`goWhere`), for arbitrary frames on the air and arbitrary bytes |
| C110 | the highest MCS for a number of streams in octets (`mcsFor`, `receives`), the best that both have (`BestStreams`) | sender made of functions of the crate (`streamsHeard`), for arbitrary frames of the crate and arbitrary bytes |
| C111 | the longest frame a station receives, in octets (`longestIn`), frames within a limit (`Within`), the size of a frame with one message (`aloneSize`) | sender made of functions of the crate (`limitHeard`, `sendPacked`), what arrives by `packetsIn` of C94; every other division into frames |
| C112 | what a receiver understands by the bits of its element (`Understands`), what a sender gets of its wish (`Granted`), the HT-SIG bits of C87 (`Describes`) | sender made of functions of the crate (`sigHeard`), for arbitrary frames of the crate and arbitrary bytes |
| C113 | which HT transmissions need protection by octet 2 of the HT operation element (`mustProtect`) | sender made of functions of the crate (`protectHeard`), for arbitrary frames of the crate and arbitrary bytes |
| C114 | the ATIM windows after each beacon time (`AwakeAt`), what a station knows by the octets of a network (`RightAwake`) | station made of functions of the crate (`awakeHeard`), for arbitrary frames of the crate and arbitrary bytes |
| C115 | slots, preambles and waiting times by the two octets of the capabilities (`slotOf`, `preambleOf`, `waitOf`) | station made of functions of the crate (`timingHeard`), for arbitrary frames of the crate and arbitrary bytes |
| C116 | what a vendor says by the octets of the elements (`vendorPieces`, `vendorMessage`) | sender and receiver made of functions of the crate (`messageItems`, `messageHeard`), for arbitrary frames of the crate and arbitrary bytes |
| C117 | kind of network, encryption and what a station may do by the first octet of the capabilities (`networkKindOf`, `demandsKey`, `RightApproach`) | station made of functions of the crate (`approachHeard`), for arbitrary frames of the crate and arbitrary bytes |
| C118 | protection of a network by an octet of the capabilities and the octets of the elements (`SaysRobust`, `coverOf`) | station made of functions of the crate (`coverHeard`), for arbitrary frames of the crate and arbitrary bytes |

## Seeded wrong programs

`seeded/LOG.jsonl` has one line for each edit of the model, made in a scratch copy and rebuilt.

- `theorems_failed` are property theorems whose own proof no longer checks.
- `theorems_resting_on_failed_lemmas` were not checked again, because a lemma below them failed first.
- A failing proof shows that the proof depends on the edited code. It does not by itself show that the
  claim is false of the edited program. For edits chosen by hand the broken claim was written down before
  the run; for generated edits it is inferred from the theorems that failed.
- Edits that do not compile as a model are left out.
- An edit that no theorem noticed is run again after theorems were added or tightened. It is logged as
  detected only if that second run fails.
- Edits called equivalent were either proved equal to the original on the values that can occur, or change
  a branch that a property theorem shows unreachable.
  Two edits that only give a loop one round more than it needs (`listedIds`, `heardIn`) are called
  equivalent because these loops always succeed (`listed_total`, `heard_total`), and a loop that succeeds
  gives the same with one round more (proved in the scratch copy).
- Some generated edits change a hypothesis or a specification in a file of properties. They are kept and
  marked in `outcome`, and are no evidence about programs.

## What is modelled

Every function of these files that computes a value, parses, writes or measures,
except as listed under "Not modelled":

* `common/*` (frame control, types and subtypes, AID, status, reason, capability
  and HT-SIG fields, `ReadIterator`, FCS handling)
* `elements/*` (all element types, wrapped/raw/vendor/extended elements, element
  chains, lookups, KDEs, TIM bitmaps including the `tim_bitmap!` macro, RSN
  element with builders and constants, mesh peering, HT, VHT, comparison)
* `frames/*` (management header, eleven bodies, action frames, dynamic management
  frames; control frames; data header, payloads, A-MSDU, builder;
  `GenericFrame` and `match_frames!`)
* `crypto/*` (CCMP/TKIP header, crypto wrapper, Michael, PRF, PTK, PMKID, PSK,
  EAPOL-Key frames, serialising and deserialising protected EAPOL frames)

## Not modelled

* derived formatting (`Debug`, `defmt`), except the names of the four VHT MCS ranges; derived `Hash` of types with derived comparison, derived `Ord` of `KeyManagementError`, `Clone`
* lifetimes; the type-level bookkeeping of the builder and
  of element chains beyond the order of calls (it is data in the model)
* the contents of a buffer after a writer returned an error, except for the two EAPOL functions (C75), the vendor action header (C79) and, as anything at all, dynamic management frames (C82)
* `SHA-1`, `AES`, `CRC-32`, `PBKDF2` as implemented by other crates: parameters,
  or the functions their standards define (C59, C60)
* `usize` overflow

## Violations found

The code does not satisfy the property as stated in these cases.  Each is a proved
theorem with a concrete witness or an exact condition; beside it stands a partial
theorem for the inputs where the property does hold.  "Strict" refers to the
reading of scroll's offset rule under which a zero-length item at the very end
of a buffer is refused.

<!-- violations -->
* `c01_invalid_subtype`: Violation: not every value of the Rust type has a wire
  form: an `Unknown` subtype of 16 or more is changed by the round trip, and the
  frame control setter panics on it.
* `c02_OptionalFeatureConfig_changed`: Violation: the codes 2 and 3 of the
  optional feature setting are exchanged.
* `c05_short_panics_iff`: A buffer shorter than four bytes panics (and only
  then): the last part of C05 does not hold for the code.
* `c05_short_not_error`: Violation of the last part of C05, concretely.
* `c06_strict_loses_empty_last`: C06 in full is violated under the strict rule:
  an empty last element (for example a wildcard SSID at the end of a probe
  request) is lost when iterating.
* `c07_first_wrong`: C07 as stated is violated: when the first element of the
  kind does not parse, the lookup does not report this but goes on and returns a
  later one.
* `c07_parse_raw_panics`: Violation: `parse_raw_element`, called directly,
  panics on a vendor element shorter than the prefix.
* `c09_rates_wrong`: Violation: nine rates made by the other constructor measure
  nine bytes and are written as eight.
* `c09_tim_wrong`: Violation: a bitmap made by `new_static` measures one byte
  less than written, and so does a set traffic indicator without a map.
* `c09_rsn_wrong`: Violation: with PMKIDs.
* `c09_chain_wrong`: violation: one ending in a raw element measures two bytes
  less.
* `c09_bodies_wrong`: Violation: the mesh peering action bodies and the vendor
  specific body measure one byte less than they write, so a buffer of the
  reported size is too small.
* `c09_ack_wrong`: Violation: no Ack measures what it writes.
* `c09_amsdu_wrong`: Violation: an A-MSDU whose subframe needs padding: a buffer
  of the reported size is accepted, and more bytes than that are reported as
  written.
* `c09_crypto_wrapper_wrong`: Violation: with a MIC, a buffer one byte too small
  panics.
* `c09_strict_spare_byte`: Violation with scroll 0.12: a hidden SSID measures
  nothing, and cannot be written into nothing.
* `c13_mcs_set_overreports`: For the MCS set alone the claim about the consumed
  length is violated: given 14 or 15 bytes it reports 16 consumed.
* `c14_overreports`: Violation: with 20 or 21 bytes the reserved bytes are not
  checked: 22 bytes are reported as consumed.
* `c14_round_trip_fails`: C14 is violated: an element whose information word is
  1 (secondary channel above) is written with an all-zero information field and
  read back as 0.
* `c14_rewrite`: Violation: the other direction fails too, received bytes are
  not reproduced. The information bytes x0 x1 x2 x3 x4 come out as 00 00 00 x4
  x3.
* `c15_rebuild_panics`: What is missing: building from more than four levels.
  `from_vht_mcs_iter` shifts a `u8`, which overflows (a panic) at the fifth
  item, so that the eight levels of a map can never be put together again.
* `c15_build_five_panics`: The same for any five or more levels.
* `c16_first_bit_missed`: Violation: a received bitmap with N1 = 2 and first
  byte 1 announces AID 16, which is not read back.
* `c16_static_wrong`: Violation: a map announcing traffic for AID 42 only is
  read as AID 74.
* `c16_listing_misses`: Violation: AID 16, listed, is not read back (nor any
  other lowest AID that is a multiple of 16).
* `c16_listing_zero_panics`: Violation: a list with no AID but 0, other than the
  literal form `tim_bitmap!(0)`, makes a bitmap whose use panics.
* `c16_static_measure`: Violation: the size reported for a static map is one
  less than what is written, so that in an element the length byte is one too
  small.
* `c17_measure_pmkid`: Violation: with PMKIDs the size reported is twelve bytes
  too small for each.
* `c17_pmkid_count`: Violation: with any PMKIDs it is not; the count is four
  times the number of PMKIDs.
* `c17_pmkid_misread`: Violation: an element as in the standard, with a single
  PMKID, is misread: only four bytes of the PMKID are taken for the list, which
  holds no PMKID then, and the next four bytes of it are taken for the group
  management cipher suite.
* `c17_pmkid_shifted`: Violation: whatever PMKIDs an element as in the standard
  has, only a quarter of them are read, and four octets in the middle of the
  others are taken for the group management cipher suite.
* `c17_pmkid_element`: Violation: a PMKID makes the length byte of the element
  twelve too small, so that whoever parses it gets the element cut short: the
  group management cipher suite is not the one written.
* `c17_owe_lost`: Violation: `OWE` names a group management cipher suite but no
  PMKID list; the suite is not written although it is measured. The rest is:
  CCMP, CCMP, the AKM suite of OWE and the capabilities.
* `c17_empty_list_strict`: If `scroll` refuses empty reads at the end of the
  input, a list that is empty and last is read as absent.
* `c18_group_dependent_wrong`: Violation: SAE whose hash depends on the group,
  without and with fast transition, has the suite types 24 and 25 in the
  standard; the library sends 22 and 23 for them and does not know 24 and 25.
* `c18_sha384_missing`: Violation: the two suites with a pre-shared key and
  SHA-384, types 19 and 20, which the library names, have no key lengths at all,
  where the standard has 24, 32 and 24 bytes.
* `c18_feature_bits_changed`: Violation: reading 0b10 and writing it again gives
  0b11 (and 0b11 gives 0b10).
* `c18_feature_write_read`: Violation: a setting written and read again;
  "required" comes back as "invalid".
* `c18_mfp_required_lost`: The same through the capability field: setting the
  management frame protection to "required" reads back as "invalid".
* `c18_mfp_standard_partial`: Violation: the decoded setting agrees with the
  standard only when it is "disabled".
* `c18_spp_standard_partial`: Violation: the decoded setting agrees with the
  standard only when nothing is required.
* `c18_mfp_written_partial`: Violation: written, a setting for management frame
  protection has the bits of the standard only when it is "disabled" or
  "required"; "capable" is sent as "required but not capable".
* `c18_capable_incompatible`: ...but not for all of them. Violation: two
  stations that are both capable are reported incompatible, as are a capable and
  a requiring one, and a capable and a disabled one.
* `c19_read_long_panics`: Violation: any input of more than twenty-four bytes
  makes the parser panic.
* `c19_confirm_close_ambiguous`: Confirm and close can not always be told apart:
  the format itself is ambiguous, the kind of frame decides.
* `c20_owe_hidden_strict`: Violation: under the strict rule the element of a
  hidden network (empty SSID) without band and channel is written, but not
  parsed.
* `c21_round_trip_wrong`: Violation: the HT control field is written whether or
  not the order flag is set, so a header with HT control and without the order
  flag is not read back.
* `c21_order_without_ht`: Violation: a header with the order flag and without HT
  control is written without the field, and what follows is read as HT control.
* `c22_measure_wrong`: Violation: the three mesh peering bodies report one byte
  less than they write: the action code is not counted, so a buffer of the
  reported size is too small.
* `c22_no_elements_strict`: Under the strict rule a body without elements, as
  written by the library, is not read back.
* `c23_short_fcs`: Violation: with fewer than four bytes it does panic.
* `c23_other_subtype_accepted`: Violation: only the type is checked, not the
  subtype, so a deauthentication frame (subtype 12) is accepted by the parser
  for disassociation frames (subtype 10), and conversely.
* `c24_new_panics_iff`: `new` panics exactly when a check sequence is expected
  in fewer than four bytes.
* `c24_kinds`: Which kinds of frames have which field, against the standard: the
  third address and sequence control are right; the second address is left out
  for trigger, TACK, beamforming report poll, NDP announcement, RTS and CF-End
  with ack frames (a violation), and right for exactly the others.
* `c24_rts_address2`: Violation: the second address of an RTS frame is its
  transmitter address, but the generic view returns none.
* `c25_with_fcs_false`: Violation: the value given to `with_fcs:` is ignored, so
  `with_fcs: false` demands a check sequence and refuses a frame without one.
* `c26_ack_length`: Violation: an Ack reports fourteen bytes and writes eight.
* `c27_order_without_qos`: Violation (HT control exactly for QoS frames with the
  order flag): a frame which is not QoS and has the order flag, which then
  stands for strict ordering, loses the first four bytes of its payload to HT
  control.
* `c27_measure_wrong`: Violation: the measure of a header is two more than what
  it writes.
* `c28_bssid_both`: Violation: with both flags set the transmitter address is
  reported as BSSID, though the frame has none, or has it in the third and
  fourth address.
* `c28_set_get_bssid_wrong`: Violation: in an A-MSDU with one flag or both, the
  BSSID set is written to the third address, while the first or second is read;
  so what is read is what was there before.
* `c29_from_ds_swapped`: Violation: the program of the documentation. After
  `destination_address` the builder takes the frame for one which neither goes
  to nor comes from the DS, though the flag is set; so the source and the BSSID
  are exchanged.
* `c29_qos_improper`: Violation: no QoS frame built has a QoS field, so none is
  a proper frame, and reading it back takes two bytes of the payload for the QoS
  field.
* `c29_amsdu_unmarked`: Violation: a frame to the DS built for an A-MSDU is not
  marked as one, and reports the BSSID as its destination.
* `c29_missing_address4`: Violation: a frame with both flags can be built
  without a fourth address; it is not a proper frame.
* `c29_order_improper`: Violation: asking for the order flag also gives an
  improper frame.
* `c29_replaced`: Violation: a destination, a source or a BSSID may be given
  twice, or after the receiver or transmitter whose field it shares; the address
  given first is lost without a word.
* `c29_null_to_ds_unbuildable`: Violation: no program builds a frame without
  payload which goes to the DS, such as the Null frame a station announces power
  saving with: there is no way to give its third address.
* `c29_payload_to_ds_unbuildable`: Violation: `payload` takes any payload that
  can be written, such as an LLC frame or an encrypted one, but no program
  builds a frame to the DS around it: the third address can only be given when
  the payload is a plain slice or an A-MSDU.
* `c30_measure_wrong`: Violation: the size reported is too small for a subframe
  with one byte of payload.
* `c30_write_beyond`: Violation: given a buffer of the size reported, the writer
  succeeds and reports more bytes than the buffer has.
* `c30_unpadded_panics`: Violation: the standard does not pad the last subframe;
  iteration over it panics, unless its size is a multiple of four by itself.
* `c30_length_little_endian`: Violation: the length field is little-endian; the
  standard has it big-endian, so a payload of one byte is announced as one of
  256 bytes.
* `c30_length_wraps`: Violation: a payload of 65536 bytes or more is written
  with its length reduced modulo 65536.
* `c31_key_id_wrong`: The key id the parser returns is 64 times the two lowest
  bits of the octet, never a valid non-zero key id: whenever the key id on the
  wire (the two highest bits) is not zero, the result differs from it.
* `c31_key_id_lost`: Parsing a written header: the packet number is kept, the
  key id always becomes zero.
* `c32_write_partial`: Given room for everything, the wrapper is written as
  header, payload, zeros of the MIC's length, and the rest of the buffer is left
  alone. The full property also wants an error when there is too little room:
  see `c32_write_short` and, for the violation, `c32_write_panics`.
* `c32_write_panics`: Room for header and payload but not for the MIC panics.
* `c32_read_panics_iff`: When the parser panics, the payload parser being one
  that does not: the header is there and accepted, and what follows is shorter
  than the MIC.
* `c32_payload_panics`: Protected frames panic when the payload is too short for
  header and MIC, or lacks the extended IV bit, or has no content and scroll
  refuses to read at the end; together with `c32_protected` this covers all
  cases.
* `c32_payload_panics_example`: A received protected data frame with a three
  byte payload is enough.
* `c37_length_wraps`: Violation: longer key data is written, with a body length
  that is too small.
* `c37_version_ignored`: Violation: the property wants other protocol versions
  refused, but the parser does not look at the version.
* `c37_empty_strict`: Violation: under the strict rule of scroll a frame without
  key data (handshake message 4) whose body ends right there is refused,
  whatever follows it in the buffer.
* `c39_panics`: Violations: received bytes on which deserialising panics. In
  order: a frame of three bytes with check sequence; a frame that ends with the
  ether type; encrypted key data of length zero; a key data length beyond the
  end; a temporary buffer that is too short; a MIC length of 24.
* `c39_round_trip_wrong`: Violations of the round trip. The MIC field is not
  zeroed before the MIC is computed, so that a frame given with another MIC
  field is rejected by the receiver; a frame flagged as encrypted without key
  data makes the receiver panic; a MIC field that does not have 16 bytes, and a
  temporary buffer of 24 bytes with key data of more than 16 bytes, make the
  sender panic.
* `c40_long_mic_panics`: Violation: with a suite whose MIC has 24 bytes (types
  12, 13 and 17) every complete frame with the MIC flag makes the receiver
  panic, since HMAC-SHA-1 has only 20; so does the right MIC.
* `c41_violations`: Violation: each of the three does panic on some bytes.
* `c42_raw_element_strict`: Violation: with the strict rule an empty element
  which is the last thing in a frame is lost, and one which is not is read.
* `c42_eapol_short`: Violation: an EAPOL-Key frame whose packet body is longer
  than its contents is accepted, with fewer bytes reported than needed: those
  bytes alone are not accepted.
* `c43_mcs_set`: Violation: the MCS set reports 16 bytes of 14.
* `c43_ht_operation`: Violation: HT operation reports 22 bytes of 20.
* `c43_subframe_wrong`: Violation: 15 bytes of which 16 are reported.
* `c44_len_wrong`: C44's claim about `len()` is violated: two bytes holding one
  16-bit item report length 2.
* `c46_generate_loses_76`: C46 is violated: MCS index 76, which is valid, is
  lost.
* `c47_panics_iff`: The last clause of C47 is violated: the constructor panics
  for 64000 kbit/s, and exactly when the number of units modulo 256 does not fit
  in seven bits.
* `c48_vendor_measure_wrong`: Violation: the reported size of a vendor specific
  body leaves out the category byte.
* `c51_violations`: C51 is violated: a set defined equal to the receive set is
  also reported as undefined; an undefined one is also reported as equal; flags
  with nothing defined but "not equal" are reported as possibly differing.
* `c52_reserved_inconsistent`: Violation: for subtype 13 `data_frame_cf` says
  "ack" but `is_cf_ack` says no, and the QoS bit is set but `is_qos` says no.
* `c53_not_key`: Violation (only key frames are reported): neither the LLC and
  SNAP header nor the type of the EAPOL packet is looked at. A payload which
  does not begin with LLC and SNAP and an EAPOL-Start packet, which is not a key
  frame, are reported as well, as is a frame with the protected flag, in which
  these bytes are ciphertext.
* `c54_hidden_ssid_strict`: Violation: an SSID that hides the name is written as
  an element which, with the strict rule of `scroll`, is not found again.
* `c54_hidden_never_strict`: Violation: with the strict rule no lookup of names
  ever returns a hidden one, whatever the elements are and wherever it stands
  among them.
* `c55_rsn_equal_different`: Violation: two parsed elements compare equal and
  are nevertheless different, and are written as different bytes: those at the
  end of the PMKID list that do not make up a PMKID are compared by nothing. The
  derived `Hash` does read them, so that equal elements have different hashes.
* `c55_tim_measure_wrong`: Violation: elements that compare equal report
  different sizes.
* `c56_temporary_buffer_panics`: Violation: a temporary buffer of 24 bytes or
  more that is too short for the wrapped key data makes the sender panic, though
  there is an error for it.
* `c56_mic_length_panics`: Violation: a MIC field that does not have sixteen
  bytes makes the sender panic: there are AKM suites with MICs of 24 bytes.
* `c56_read_no_info`: The key information is cut off: too short, or, without
  even its start, a panic (violation).
* `c56_read_length_panics`: Violation: a key data length beyond the end of the
  frame makes the receiver panic, although the error for it is at hand.
* `c56_read_panics`: Violations: encrypted key data shorter than eight bytes,
  and a temporary buffer too short for the plain key data, make the receiver
  panic.
* `c56_read_unwrap_wrong`: Violation: key data that does not unwrap under the
  key, because of the wrong key or a changed byte, is reported as too short a
  temporary buffer, however long that buffer.
* `c56_unwrap_wrong_witness`: Violation: the temporary buffer is long enough,
  the last byte of the wrapped key data is wrong. Then: no header, no ether
  type, another ether type, no key for the MIC, no key for the key data, the end
  of the frame missing.
* `c58_payload_view_strict`: Violation: under the strict rule the empty contents
  of a frame are not seen, and those of a protected frame make the view panic.
* `c60_wrap_eapol_refused`: Violation: what `wrap_eapol_key_data` makes of key
  data of more than eight bytes is not key data of an EAPOL frame. IEEE 802.11
  asks for RFC 3394 and padding by 0xdd and zeros; the function applies RFC
  5649, and the receiver, this crate included, fails the integrity check: for
  every key and all key data.
* `c61_rate_wraps`: Violation: a literal of 128 or more is not refused by
  `rate!`; up to 2048 it compiles and wraps around to a rate below 64 in every
  other interval of 64, and does not compile in between.
* `c61_rate_negative`: Violation: a negative literal is not refused either; it
  compiles to the rate zero.
* `c62_pmkid_short_wrong`: Violation: a PMKID is not always shown by its 32
  digits; leading zeros are dropped.
* `c62_tim_format_wrong`: Violation: to a logger, a bitmap with any association
  ID is shown as its list followed by the empty list.
* `c63_ssid_wrong`: Violation: the padding is not taken off, and its zeros read
  as SSID elements: key data of one Supported Rates element and no SSID, once
  padded for the key wrap, holds a hidden SSID.
* `c64_rsn_wrong`: Violation: two received RSN elements compare equal and have
  different hashes, whatever the hashes of their parts: the bytes at the end of
  a PMKID list that do not make up a PMKID are hashed and not compared.
  (`RsnElement` has `PartialEq` and `Hash`, but not `Eq`.)
* `c64_tim_wrong`: Violation: two TIM elements with static maps that `new_raw`
  accepts compare equal and have different hashes: the bytes beyond N2 are
  hashed and not compared. `TIMElement` has `Eq`, so that this breaks the
  contract.
* `c64_tim_const_wrong`: Violation: the same with maps of the type the macro
  uses, whose fields are public.
* `c66_null_accepted`: Violation: a key frame sent with a subtype that carries
  no payload is written with its payload and deserialised, but
  `is_eapol_key_frame` says that it is none.
* `c68_empty_panics`: Violation: under the strict offset rule of scroll an
  encrypted frame with nothing in it arrives, and asking for its payload panics.
* `c69_data_changed`: Violation: a data frame of another protocol version than
  zero is accepted (the standard has it discarded) and comes out with version
  zero; whatever follows the header of a Null frame is lost.
* `c69_eapol_version`: Violation: no EAPOL key frame of another version than 2
  comes out as it came in; version 1 is common and accepted.
* `c69_mgmt_changed`: Violation: the type for disassociation frames accepts a
  deauthentication frame and sends a disassociation frame; a protocol version
  other than zero is lost.
* `c69_aid_changed`: Violation: an association response whose association ID has
  a clear top bit comes out with it set.
* `c70_following_byte`: Violation: with the strict rule of `scroll`, whether an
  empty element is seen depends on what follows: the element `[0, 0]` (a hidden
  name) at the end is not seen, but is if any byte follows, even one that
  belongs to no element.
* `c70_cut_silent`: Violation: elements that are cut off are dropped without an
  error: the lookup on the cut bytes says that there is no such element.
* `c71_data_wrong`: Violation: on a big-endian machine a data frame header that
  is written is read back as another one: here fragment number 1 of sequence
  number 0 becomes fragment number 0 of sequence number 16, and a duration of 44
  becomes one of 11264.
* `c71_rsn_wrong`: Violation: on a big-endian machine the WPA3 element of this
  crate, in which both bits on management frame protection are set, is read as
  one with this protection disabled.
* `c71_close_other_machine`: Violation: mesh peering close between two machines.
  What a big-endian machine writes, a little-endian one reads with the bytes of
  protocol, link IDs and reason exchanged (and so it does not find the link it
  is to close, unless both bytes of its ID are the same).
* `c71_close_wrong`: A concrete case: the protocol 1 becomes the unknown 256,
  and the reason "peering cancelled" (52) an unknown one.
* `c72_no_key_data_strict`: Violation: under the strict offset rule a handshake
  whose first or last message has no key data, as the standard has it, never
  succeeds: the crate does not read such a message back.
* `c73_amsdu_leaks`: Violation: an A-MSDU sends old bytes of the buffer as
  padding; everything written is given here.
* `c73_amsdu_witness`: Violation: one byte of payload, and the sixteenth byte
  sent is the old one.
* `c74_rate_wrong`: Violation: a rate of 64 Mbit/s stops a debug build and
  becomes a rate of nothing in a release build.
* `c74_aid_wrong`: Violation: the ID 16385 stops a debug build and is the ID 1
  in a release build.
* `c74_data_frame_wrong`: Violation: a data frame of a subtype that does not
  exist stops a debug build. A release build sends it as a QoS data frame
  without a QoS field, so that the receiver takes the first two bytes of the
  payload for one.
* `c74_vht_rebuild`: Violation: the eight levels of a map put together again in
  a release build give the map only if the streams five to eight have the code
  zero; otherwise another map.
* `c74_vht_wrong`: Violation: two streams with the rates 0 to 9 and no others,
  as most devices have. A debug build stops; a release build gives a map in
  which no stream of the first four is supported, and the last four are.
* `c74_tim_wrong`: Violation: a bit beyond the association IDs of sixteen bits
  stops a debug build; in a release build it announces traffic for the station
  1.
* `c75_missing_key_leaks`: Violation: serialising a frame whose key data is to
  be encrypted, without the key, is refused; but the frame with its key data in
  the clear has been written to the buffer by then.
* `c75_failure_damages`: Violations. A frame which turns out unreadable after
  decryption is not left as it was: tried again with the same keys it fails for
  another reason. And a frame which is accepted stays flagged as encrypted
  though it is decrypted, so that the same call on the same buffer refuses it
  the second time.
* `c76_subtype_panics`: Violation: a management frame with a subtype number that
  does not fit four bits panics, whatever the buffer.
* `c76_bitmap_panics`: Violation: a bitmap that reaches beyond its array panics,
  whatever the buffer.
* `c76_mic_panics`: Violation: with room for header and payload but not for all
  of the MIC, writing panics.
* `c76_amsdu_unsettled`: Violation: an A-MSDU whose subframe needs padding says
  it wrote more than there is room for.
* `c77_static_wrong`: Violation: a TIM from `new_static`. The element loses the
  last byte of the bitmap, and the bitmap begins with byte 0 although N1 says
  otherwise. So the stations told are those at a distance of `16 * (lo / 16)`
  from a station listed, and none for the stations in the same byte as the
  highest one.
* `c77_static_nobody`: Violation: an access point with traffic for one station
  that uses `new_static` tells no station at all.
* `c77_first_missed`: Violation: the station of the first bit of the bytes sent
  is not told, whatever else is announced.
* `c78_eapol_waits_forever`: Violation: the length an EAPOL frame announces is
  taken as it is. A frame announcing no body is called too short however many
  bytes follow, so waiting for more bytes never ends.
* `c78_generic_cut`: Violation: `GenericFrame::new` calls the first bytes of any
  frame invalid, although the frame is accepted once more bytes are there.
* `c78_match_cut`: Violation: so does `match_frames!`.
* `c78_ssid_over_long`: Violation: a name longer than thirty-two bytes is called
  too short a buffer, and stays so.
* `c79_strip_moves`: Violation: the check does not leave the offset alone when
  it fails. It is moved by every failing check which finds a byte at the offset.
* `c79_second_oui_missed`: Violation: looking for one of two OUIs by calling the
  check for one after the other finds the second one never where the first check
  has moved the offset, although checking for the second one alone succeeds.
* `c79_payload_taken_for_header`: Violation: a check that was moved can even
  succeed on the payload: here the body is that of another vendor, and its
  payload begins with what looks like a header.
* `c79_append_twice`: Violation: an append that fails leaves a category byte in
  the buffer and the offset behind it, so that trying again with a longer buffer
  at that offset writes a second category byte behind the first.
* `c80_next_packet`: Violation: the header of the next packet is greater than
  that of the packet before it unless the lowest byte of the packet number
  overflows; then it is less.
* `c80_packet_number_wrong`: Violation: packet 256 is less than packet 1, so a
  receiver which keeps the greatest header seen takes it for a replay.
* `c80_version`: Violation: two versions read from their codes compare as these
  codes exactly when neither is the code 0 beside one of the named versions 1 to
  3: version 0 has no name, so it is more than each of those.
* `c80_replay_counter_wrong`: Violation: in general the replay counter does not
  decide: the key information comes first, so the first message of a handshake,
  resent with a higher counter, is less than the third message sent before it.
* `c81_confirm`: Violation: the default body of a mesh peering confirmation
  holds the association ID 0, so it is written but refused when read, under
  either rule.
* `c81_data_frame`: Violation: the default data frame has no payload but a
  subtype that has one: it is read back with an empty payload.
* `c81_owe`: Violation: the default element for OWE transition mode is read back
  under the lax rule only.
* `c81_power_save`: Violation: the default HT capabilities announce static
  spatial multiplexing power save, although the default of that setting is
  "disabled".
* `c81_vht_claims`: Violation: the default VHT capabilities claim MCS 0 to 7 for
  every number of spatial streams from one to eight, in both directions,
  although the default of that setting is "not supported".
* `c81_bitmap_lost`: Violation: the default bitmap is lost in an element, which
  is read back without bitmap.
* `c83_transition_wrong`: Violation: the element for mixed WPA2 and WPA3
  networks names PSK and SAE but requires management frame protection, so that
  the WPA2 stations without it, for whose sake PSK is offered, may not join.
  (The suites are used for what they are for.)
* `c83_owe_wrong`: Violation: `OWE` holds CCMP as its suite for group management
  frames, which CCMP cannot protect. It is only not seen because the suite is
  not written without a list of PMKIDs: given one by the builder, of any length,
  it is sent.
* `c84_send_wrong`: Violation: whatever the table says, the MIC sent is that of
  HMAC-SHA-1. For every other algorithm it is wrong, unless the two happen to
  agree on the frame.
* `c84_wrap_wrong`: Violation: key data flagged as encrypted is always put
  through AES key wrap, which makes it longer; with descriptor version 1 the
  standard has ARC4, which, like every stream cipher, keeps its length.
* `c84_receive_wrong`: Violation: a frame with the right MIC of another
  algorithm, as the standard asks for with the suite and version, is refused for
  its MIC, unless the two algorithms happen to agree on it.
* `c84_sae_wrong`: Violation, with the real algorithms: SAE has AES-CMAC. The
  frame with that MIC is refused, and the one with the MIC of HMAC-SHA-1, which
  no station that follows the standard sends, is accepted.
* `c85_keys_wrong`: Violation: with the suites that have SHA-256 or SHA-384 the
  keys are still those of HMAC-SHA-1. They are wrong unless the two functions
  happen to agree...
* `c85_sae_wrong`: ...as they do not here. Violation, with the real hash
  functions: two stations with SAE, and two with the suite B of 192 bits, get
  none of the three keys of the standard.
* `c85_psk_sha384_lost`: Violation: for a pre-shared key with SHA-384, suite
  type 20, there are no keys at all.
* `c85_fit_wrong`: Which keys the functions for EAPOL frames can be given: they
  take a KCK and a KEK of 16 bytes. Violation: the keys of the two suites with
  SHA-384 have 24 and 32 bytes, and do not fit; all others do.
* `c86_forged_wrong`: Violation: the MIC is only looked at if the received frame
  asks for it. For every group key there is a frame that anyone can make up,
  without MIC and not encrypted, which is accepted with this group key whatever
  the keys: a supplicant that does not itself look at the MIC flag, as `receive`
  does, can be given any group key.
* `c86_acknowledgement_strict`: Violation: under the strict offset rule the
  acknowledgement without key data, as the standard has it, never reaches the
  authenticator.
* `c87_streams_wrong`: Violation: the field documented as the number of spatial
  streams is that number only when it happens to be the number of extra
  space-time streams; without space-time coding it is zero, and never the number
  of streams.
* `c88_read_wrong`: Violation: the field documented as the packet number is that
  only for the few packet numbers that read the same in both orders.
* `c88_traffic_lost`: Violation: after a message that follows the standard, with
  any packet number whose lower 16 bits are not all zero, a supplicant that
  compares packet numbers with the field takes every group frame for a replay.
* `c88_replay_wrong`: Violation: old frames can pass as well. After a message
  that says that 2^40 is the last packet number, a frame sent before it, with
  packet number 2^39, is not taken for a replay.
* `c88_sent_wrong`: Violation: what is sent is the octets of the packet number
  in the opposite order, which is what the standard has only for the same packet
  numbers.
* `c89_forged_wrong`: Violation: the MIC is only looked at if the received frame
  asks for it. For every RSN element there is a frame that anyone can make up,
  without MIC and not encrypted, which is accepted whatever the keys, and in
  which a supplicant finds the element again that a forged beacon announced. The
  supplicant has to look at the MIC flag itself, as `goesOn` does.
* `c89_added_wrong`: Violation: the comparison is not the one of the standard,
  which has the elements bit-wise identical. Whatever follows the last field of
  a complete element is ignored: with any bytes added it still compares equal.
* `c89_pmkid_wrong`: Violation: an authenticator compares the RSN element of the
  association request with that of the second message in the same way. If there
  is a PMKID in it, as the standard has it, three quarters of the PMKID can be
  changed without being noticed: all but the octets that the crate takes for the
  group management cipher suite. That cipher suite itself can be changed too, or
  left out.
* `c90_key_wrong`: Violation: the key is lost. Whatever key but 0 a frame was
  sent under, the receiver sees it under key 0, with which it cannot decrypt it.
* `c90_new_key_lost`: Violation: therefore traffic is lost when the key changes.
  The sender starts the packet numbers of a new key afresh; the receiver
  compares them with those of the old key, and drops frames until they are above
  these.
* `c90_receiver_panics`: Violation: anyone can stop the receiver. A data frame
  that says to be encrypted and has too little in it for header and MIC, or
  whose header lacks the extended IV flag, makes it panic.
* `c91_station_panics`: Violation: anyone can stop a mesh station. An open frame
  with the address of the other station, and in it an element with the number of
  the mesh peering management element and more than twenty-four octets, makes
  the station panic.
* `c92_feature_wrong`: Violation: features are taken for rates. If a network
  needs a feature, the octet for it is a required rate above 61 Mbit/s to the
  crate; as there is no such rate, no station joins, even if it has the feature
  and all rates.
* `c92_flag_wrong`: Violation: the flag is not what its documentation says, "Is
  the data rate IEEE 802.11b." It is set in required rates and in these only:
  set for the required 6 Mbit/s of a network without 802.11b, and not set for 11
  Mbit/s where this is not required.
* `c93_built_lost`: Violation: the builder has methods for the flags of repeated
  and fragmented frames but none for the sequence number, so all frames built
  have the same. A frame that is heard only when it is repeated is taken for a
  copy of the one before, and what is in it is lost.
* `c94_standard_panics`: Violation: an access point that takes messages from an
  A-MSDU made by the standard, where the last subframe is not padded, panics,
  unless the length of that one happens to be a multiple of four.
* `c94_documented_wrong`: Violation: with the order of calls that the
  documentation of the builder has for a frame from the distribution system, the
  station is told that the message comes from the access point.
* `c94_empty_lost`: Violation: under the strict offset rule of scroll a message
  without content gets lost.
* `c95_wildcard_lost`: Violation: under the strict rule of `scroll` the wildcard
  is not understood. A request for any network is written, but no access point
  answers it, though all are asked.
* `c95_octets_lost`: Violation: names that are not UTF-8 are lost, though a name
  may have any octets (9.4.2.2). A network with such a name is not found, and it
  does not answer when it is asked for.
* `c95_second_wrong`: Violation: a network with a name that is not UTF-8 can be
  taken for another one. If a second SSID element follows, its name is reported
  instead of the first; and an access point answers a request that is not for
  it.
* `c97_bare_lost`: Violation: under the strict rule of `scroll` letters without
  elements are not understood, though open system authentication has none
  (9.3.3.11), nor usually disassociation and deauthentication.
* `c97_nobody_joins_wrong`: Violation: under that rule nobody can join a network
  if no elements are sent, whatever the letters.
* `c97_leaving_lost`: Violation: under that rule, when a member leaves and says
  so without elements, the access point still believes it to be a member.
* `c97_refusal_lost`: Violation: a refusal is not understood if its association
  ID field is not zero and has no number from 1 to 2007, though the field is
  meaningless in a refusal; the access points of Linux set the two top bits and
  no other.
* `c98_short_panics`: Violation: fewer than four bytes, which a station may well
  hear, stop it if it expects check sequences.
* `c99_preset_wrong`: Violation: the ready-made RSN element `OWE` says that it
  is four bytes longer than what is written. Whoever reads the element takes the
  first four bytes of the next one as its end, and goes on behind them.
* `c99_preset_lost`: Violation: so an encrypted twin with this element is not
  found. The two networks are each other's twins and both are heard, but the
  element by which the encrypted one names the open one is lost; with the suite
  for group management frames taken out of the constant it is found.
* `c99_octets_lost`: Violation: a name may have any octets (9.4.2.2), but a
  transition element with a name that is not UTF-8 is lost. The station learns
  of no twin and stays in the open network.
* `c99_long_wrong`: Violation: a transition element is accepted with a name of
  more than 32 bytes, which no network can have (9.4.2.2); the station is led to
  a name for which it can make no SSID element.
* `c100_standard_lost`: Violation: in a network whose access point makes its
  bitmaps by the standard, a station whose number is a multiple of 16 gets none
  of its messages, as long as no station with a lower number has any.
* `c100_poller_lost`: Violation: the parser for control frames does not say who
  asks. `transmitter_address` has nothing for a PS-Poll, although
  `GenericFrame::address_2` has the station.
* `c101_short_wrong`: Violation: an HT operation element of 20 octets, two too
  few, is believed: here the network seems to be at channel 40 with 40 MHz,
  where by the standard only the DSSS parameter set counts, with channel 36.
* `c101_wide_lost`: Violation: if it means more, it is not understood: with
  `c101_typed`, every network wider than 20 MHz whose access point makes its HT
  operation element with the crate is heard as a network of 20 MHz.
* `c102_zero_wrong`: Violation: a DTIM period of zero, which the standard
  reserves, is written and accepted. A station that relies on it computes the
  time of the very beacon it has just heard, again and again.
* `c103_duration_wrong`: Violation: `duration` says that all frames have one.
  For each such poll it gives the association ID, as 49153 microseconds or more;
  the caller must look at bit 15, or at the subtype, to find out.
* `c106_octets_lost`: Violation: a mesh with an ID that is not UTF-8 is found by
  nobody, whatever the ID is with which it is looked for.
* `c106_unknown_lost`: Violation: two stations with the same octets do not find
  each other if one of them holds a named identifier as `Unknown`: values that
  are written alike are compared as different. Here SAE is held as `Unknown(1)`.
* `c106_second_wrong`: Violation: a mesh with an ID that is not UTF-8 can be
  taken for another one, if a second mesh ID element follows.
* `c107_standard_wrong`: Violation: to a station that writes the element as the
  standard says, the access point answers as if only the first quarter of the
  keys were listed.
* `c107_few_lost`: Violation: a station that lists one, two or three keys, which
  is what stations do, never has one used again, although the access point
  remembers them.
* `c107_typed_lost`: Violation: with the typed element of the crate no listed
  key is used again, whatever comes after the element: its length is twelve too
  small for each key, so that the list is cut off.
* `c108_required_lost`: Violation: an access point that requires protection of
  management frames, as all WPA3 networks do, is joined by no station: what the
  crate writes for "required" it reads as "invalid".
* `c108_station_lost`: Violation: a station that requires protection is accepted
  by no access point.
* `c108_capable_wrong`: Violation: of an access point that says with the octets
  of the standard that it is capable of protection (bit 7 of the capabilities)
  but does not require it (bit 6), the crate reads that it requires it: a
  station without protection does not join, although by Table 12-5 it may.
* `c108_octets_lost`: Violation: and of one that says with these octets that it
  requires protection, no station chooses a link.
* `c108_preset_lost`: Violation: a network with the preset `WPA2_WPA3_PERSONAL`
  of the crate is joined by no station.
* `c110_built_wrong`: Violation: from a list of levels, however short, the crate
  builds a map with MCS 0 to 7 for five to eight streams. Who can send with five
  or more streams sends so, and the station, for which a list has at most four
  levels (C15), does not receive.
* `c111_measured_wrong`: Violation: the crate does not count the padding.
  Messages that fit by its measure, and do not fit, are sent in one frame, which
  is too long.
* `c112_last_lost`: Violation: a receiver of MCS 76 with a set that the crate
  builds from flags is never sent to with it, even by a sender that prefers it,
  or can do nothing else.
* `c113_unprotected`: Violation: whatever protection an access point demands
  with the setters of the crate (the bits from 33 on are reserved, and no setter
  sets them), the element that it sends demands none, and so old stations are
  not protected.
* `c114_long_lost`: Violation: with a duration of 65536 time units, which is
  longer than every interval, everybody should always be awake, and nobody ever
  is.
<!-- end violations -->
