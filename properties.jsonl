{"id": "C01", "title": "Frame type bits are lossless and decode by the 802.11 type/subtype table", "statement": "Decoding the six type/subtype bits of a frame control field and encoding the result gives the same six bits back; every frame type value the library can hold encodes and decodes to itself; the low two bits alone select Management/Control/Data/Unknown and the upper four bits select the subtype listed in the standard.", "quantifier": "for all 64 bit patterns and for all FrameType values, including every Unknown payload", "why_tests_cant": "Tests decode a handful of captured frames; the property is about every bit pattern and every constructible enum value, including Unknown values with payloads outside the encodable range.", "anchors": ["src/common/mod.rs: FrameType::from_bits, FrameType::into_bits", "src/common/subtypes: ManagementFrameSubtype, ControlFrameSubtype, DataFrameSubtype"]}
{"id": "C02", "title": "Enumerated codes never change value when parsed and written back", "statement": "For every enumeration carried on the wire (subtypes, status codes, reason codes, authentication algorithms, category codes, HT/VHT/mesh enumerations, crypto and RSN selectors), converting a raw code to the enum and back yields the same raw code, and two different named variants never share a code.", "quantifier": "for all raw codes of the field's width and for all pairs of variants", "why_tests_cant": "There are up to 2^32 raw codes per enumeration and no tests of unknown ones.", "anchors": ["src/common/subtypes", "src/common/mod.rs: IEEE80211StatusCode, IEEE80211Reason", "src/elements/rsn.rs: IEEE80211CipherSuiteSelector, IEEE80211AkmType, OptionalFeatureConfig", "src/elements/ht", "src/elements/vht.rs", "src/elements/mesh"]}
{"id": "C03", "title": "Bit-field accessors read and write only their own bits", "statement": "For every packed field (frame control, flags, capabilities, sequence control, HT/VHT capabilities and operation, RSN capabilities, mesh, TIM control, AID), setting a field then reading it gives the set value, all other fields keep their value, converting from and to raw bits is the identity, and the position of each field is the one in the 802.11 tables.", "quantifier": "for all raw words, all fields, all in-range values", "why_tests_cant": "A word has up to 2^64 values times all fields; the tests set a few fields of default words.", "anchors": ["src/common/mod.rs", "src/common/mod.rs: SequenceControl", "src/elements/ht/capabilities.rs", "src/elements/ht/operation.rs", "src/elements/vht.rs", "src/elements/rsn.rs: RsnCapabilities"]}
{"id": "C04", "title": "Association IDs accept exactly 1..=2007 and keep the two top bits set on the wire", "statement": "AssociationID::new_checked(x) succeeds exactly when x without its two top bits is in 1..=2007; aid() of the result is that number, the wire form has the two top bits set, and reparsing the wire form gives the same ID.", "quantifier": "for all 16-bit inputs", "why_tests_cant": "Acceptance at every one of 65536 inputs, and its relation to the wire form, is not tested.", "anchors": ["src/common/aid.rs: AssociationID::new_checked, aid, into_bits"]}
{"id": "C05", "title": "Frame check sequence: parsing with FCS accepts exactly frames whose trailer is the CRC of the rest", "statement": "strip-and-validate succeeds iff the last four bytes are the little-endian CRC-32 of all preceding bytes, and then returns exactly the preceding bytes; attaching an FCS produces a frame that is accepted; changing any one byte of the trailer makes it rejected; a buffer shorter than four bytes is reported as an error and does not panic.", "quantifier": "for all byte strings and for any CRC function", "why_tests_cant": "Tests use a few valid frames; neither rejection of every corrupted trailer nor short buffers are covered.", "anchors": ["src/common/mod.rs: strip_and_validate_fcs, attach_fcs"]}
{"id": "C06", "title": "Writing a chain of elements and iterating over the bytes yields the same elements in the same order", "statement": "For any chain of elements each of whose payloads fits in 255 bytes, the written bytes are the concatenation of id, length and payload of each element in order, and iterating raw elements over those bytes yields exactly those ids and payloads, in order, with nothing after.", "quantifier": "for all chains of any length of plain, extended and vendor elements", "why_tests_cant": "Chains are unbounded lists of heterogeneous payloads; tests use two or three elements.", "anchors": ["src/elements/element_chain.rs", "src/elements/mod.rs: WrappedIEEE80211Element, ReadElements, RawIEEE80211Element", "src/common/read_iterator.rs"]}
{"id": "C07", "title": "Element lookup returns the first element of the requested kind and nothing else", "statement": "get_first_element for a given kind returns the parse of the first raw element whose id (and extension id or vendor prefix) matches, skips elements of other kinds whatever their contents, and returns None when there is none; get_matching_elements yields all of them in order.", "quantifier": "for all element byte strings and all element kinds", "why_tests_cant": "Requires all interleavings of matching and non-matching elements.", "anchors": ["src/elements/mod.rs: get_matching_elements, get_first_element, element_id_matches, parse_raw_element"]}
{"id": "C08", "title": "Iterating over received elements terminates, never panics and never looks outside the buffer", "statement": "For any bytes whatsoever, iterating over the elements ends after at most len/2 items, never panics, and each item's payload is a contiguous piece of the input.", "quantifier": "for all byte strings", "why_tests_cant": "Robustness to arbitrary received bytes cannot be shown by examples.", "anchors": ["src/elements/mod.rs: ReadElements::into_iter, get_matching_elements", "src/common/read_iterator.rs"]}
{"id": "C09", "title": "Reported serialized size equals the bytes actually written", "statement": "For each serialisable value, the size reported by measuring equals the number of bytes written; a buffer of exactly that size is enough and a smaller one gives an error rather than a panic or partial success; bytes beyond the written ones are untouched.", "quantifier": "for all values of each type and all buffers", "why_tests_cant": "The relation is over all values and all buffer sizes; tests check one size for a few values.", "anchors": ["every MeasureWith/TryIntoCtx pair in src/"]}
{"id": "C10", "title": "SSID and mesh ID: at most 32 bytes, round trip, over-long rejected", "statement": "Creation and parsing succeed exactly for names of at most 32 bytes (and valid UTF-8 when parsing); writing then parsing gives the same name; longer inputs give None or an error.", "quantifier": "for all byte strings", "why_tests_cant": "All strings at and around the limit, including multi-byte encodings.", "anchors": ["src/elements/ssid.rs"]}
{"id": "C11", "title": "Supported and extended supported rates round trip within their length limits", "statement": "Creation accepts at most 8 (251) rates; writing emits one byte per rate in order; parsing gives the rates back in order; more than 8 rates are rejected when parsing supported rates; parsing arbitrary bytes never panics.", "quantifier": "for all rate lists and all byte strings", "why_tests_cant": "List length is arbitrary.", "anchors": ["src/elements/rates"]}
{"id": "C12", "title": "Fixed-size elements (DSSS, IBSS, BSS load, VHT capabilities/operation, mesh configuration) round trip in both directions", "statement": "Writing any value and parsing the bytes gives the value back; parsing any sufficiently long bytes and writing gives the consumed bytes back; shorter inputs give an error; the byte layout is the standard's.", "quantifier": "for all values and all byte strings", "why_tests_cant": "2^96 values; tests check one sample each.", "anchors": ["src/elements/dsss_parameter_set.rs", "src/elements/ibss_parameter_set.rs", "src/elements/bss_load.rs", "src/elements/vht.rs", "src/elements/mesh/mesh_configuration.rs"]}
{"id": "C13", "title": "HT capabilities element round trips, including the MCS set and its reserved bytes", "statement": "Writing any HT capabilities value produces 26 bytes which parse back to it, and parsing never claims to consume more bytes than it was given.", "quantifier": "for all values and all byte strings", "why_tests_cant": "2^200 values, plus truncated inputs.", "anchors": ["src/elements/ht/capabilities.rs", "src/elements/ht/mcs_set.rs"]}
{"id": "C14", "title": "HT operation element round trips", "statement": "Writing any HT operation value and parsing the bytes gives the same value; parsing received bytes and writing them again gives the same bytes.", "quantifier": "for all values of the 40-bit information field, channel and MCS set", "why_tests_cant": "The one test uses a value for which byte order errors would be visible only for some bits.", "anchors": ["src/elements/ht/operation.rs"]}
{"id": "C15", "title": "VHT MCS map: two bits per stream count, reading and building agree", "statement": "vht_mcs_support_for_nss(n) is Some exactly for n in 1..=8 and is the n-th pair of bits; building a map from the eight values read out gives the same map and never panics.", "quantifier": "for all 65536 maps and all n", "why_tests_cant": "Only a few maps are tested.", "anchors": ["src/elements/vht.rs: VHTMCSMap"]}
{"id": "C16", "title": "TIM: the set of associations announced is the set that is read back", "statement": "For every set of AIDs given to the constructor, iterating the AIDs of the bitmap (also after writing and parsing it) yields exactly that set, in ascending order, and the traffic indicator is the multicast flag; dtim_count > dtim_period is rejected when reading and writing.", "quantifier": "for all sets of AIDs in 1..=2007, both flag values, all counts and periods", "why_tests_cant": "2^2007 sets.", "anchors": ["src/elements/tim.rs: TIMBitmap::new_static, aid_iter, tim_bitmap!, TIMElement"]}
{"id": "C17", "title": "RSN element round trips with any prefix of its optional fields and any list lengths", "statement": "For any well-formed RSN element (a field present only if all before it are), writing then parsing gives the same element; parsing accepts input truncated at any field boundary and reports the remaining fields as absent; version other than 1 is rejected; the PMKID count and list use 16-byte entries.", "quantifier": "for all lists of selectors and PMKIDs and all prefixes of optional fields", "why_tests_cant": "Unbounded lists and 7 truncation points with arbitrary contents; PMKIDs are never tested.", "anchors": ["src/elements/rsn.rs: RsnElement"]}
{"id": "C18", "title": "RSN suite tables: selector code, key lengths and optional feature negotiation", "statement": "Selector-to-code conversion is a bijection on its range; TK/KCK/KEK/MIC lengths match table 12-8/12-10 of the standard for each named suite and None for vendor suites; an optional-feature setting read from the wire and written again is unchanged; two stations that both support a feature are compatible.", "quantifier": "for all 2^32 selectors and all pairs of settings", "why_tests_cant": "Tables are never tested.", "anchors": ["src/elements/rsn.rs: tk_len, mic_len, kck_len, kek_len, key_mic_len, OptionalFeatureConfig"]}
{"id": "C19", "title": "Mesh peering management element distinguishes open, confirm and close and keeps its IDs", "statement": "An element built for open (confirm, close) and parsed from its bytes gives back the same protocol, link IDs, reason and PMK when interpreted as open (confirm, close); parsing arbitrary bytes never panics.", "quantifier": "for all link IDs, reasons, PMKs, and all byte strings", "why_tests_cant": "All 2^144 values and arbitrary lengths.", "anchors": ["src/elements/mesh/mesh_peering_management.rs"]}
{"id": "C20", "title": "Vendor elements: OWE transition mode and key data encapsulations round trip and only match their own prefix", "statement": "Each vendor element's written payload starts with its OUI and type; lookup selects it iff the prefix is equal; OWE transition and MAC/PMKID/nonce/lifetime/GTK payloads parse back to the same values.", "quantifier": "for all values and all vendor payloads, including ones shorter than the prefix", "why_tests_cant": "Prefix collisions and truncated vendor elements are untested.", "anchors": ["src/elements/kde.rs", "src/elements/owe_transition.rs", "src/elements/mod.rs: VendorSpecificElement"]}
{"id": "C21", "title": "Management frame header layout and round trip", "statement": "A header is written as duration, three addresses, sequence control and, only with the order flag, HT control, each at its standard offset; parsing returns the same header; inputs too short are errors; the reported length equals bytes written.", "quantifier": "for all headers and all byte strings", "why_tests_cant": "All 2^208 headers.", "anchors": ["src/frames/mgmt_frame/header.rs"]}
{"id": "C22", "title": "Each management frame body round trips", "statement": "For association request/response, authentication, beacon, probe request/response, deauthentication, disassociation and mesh peering open/confirm/close bodies: writing then parsing gives the same fixed fields and the same element bytes; measure is exact.", "quantifier": "for all field values and all element bytes", "why_tests_cant": "Arbitrary elements and field values.", "anchors": ["src/frames/mgmt_frame/body"]}
{"id": "C23", "title": "Complete management frames round trip with and without FCS", "statement": "Writing a management frame and reading it as the same type returns the same header and body; with the FCS flag the written length grows by four, the reader validates it, and a frame with a wrong FCS is an error; reading a frame of another type is an error.", "quantifier": "for all headers, bodies, FCS flags", "why_tests_cant": "Combination of C21, C22 and C05 for every frame.", "anchors": ["src/frames/mgmt_frame/mod.rs: ManagementFrame::try_from_ctx, try_into_ctx"]}
{"id": "C24", "title": "GenericFrame accessors agree with the fully parsed frame", "statement": "For any bytes that parse as a typed frame, the generic view's frame control field, addresses 1-3 and sequence control are the ones of the typed parse; accessors return None for frame kinds that lack the field; nothing panics on any input of ten bytes or more.", "quantifier": "for all byte strings", "why_tests_cant": "Two independent decoders over all inputs.", "anchors": ["src/frames/mod.rs: GenericFrame"]}
{"id": "C25", "title": "Frame matching dispatches each frame to the arm of its own kind only", "statement": "GenericFrame::matches::<F>() is true exactly when the type/subtype (and action category/code) in the bytes is F's; two different frame kinds never both match; if a frame kind matches and its parse succeeds the arm gets that parse.", "quantifier": "for all byte strings and all frame kinds", "why_tests_cant": "Mutual exclusion over all inputs.", "anchors": ["src/frames/mod.rs: matches, match_frames!"]}
{"id": "C26", "title": "Control frames round trip and report their size", "statement": "RTS, CTS, Ack and unknown control frames write their fields in standard order and parse back to the same frame under the same subtype; the reported length equals bytes written.", "quantifier": "for all field values and bodies", "why_tests_cant": "Sizes for every variant; the tests do not compare Ack's size.", "anchors": ["src/frames/control_frame/mod.rs"]}
{"id": "C27", "title": "Data frame header presence rules and round trip", "statement": "The fourth address is present exactly when both DS flags are set, QoS control exactly for QoS subtypes, HT control exactly for QoS with the order flag; a header parsed from bytes writes back the same bytes after the frame control field; the reported length equals what is consumed minus the frame control field rule.", "quantifier": "for all headers and byte strings", "why_tests_cant": "All 2^14 combinations of subtype and flags with all contents.", "anchors": ["src/frames/data_frame/header.rs"]}
{"id": "C28", "title": "Data frame address roles follow table 9-30", "statement": "destination, source, BSSID, receiver and transmitter address accessors return the address field given by the To DS/From DS/A-MSDU table of the standard; the mutable accessor of a role designates the same field as the shared one; setting a role and reading it gives the set address.", "quantifier": "for all headers (all DS flag combinations, A-MSDU or not, all addresses)", "why_tests_cant": "Tests cover single combinations.", "anchors": ["src/frames/data_frame/header.rs: destination_address, source_address, bssid, *_mut"]}
{"id": "C29", "title": "Data frame builder produces headers whose role accessors return the addresses given", "statement": "For each direction and category, a frame built by giving its destination, source, BSSID, receiver/transmitter addresses reports exactly those through the role accessors, and its flags and subtype correspond to the direction and category chosen; a QoS frame has a QoS field.", "quantifier": "for all addresses, directions, categories", "why_tests_cant": "Type-state builder with many paths; tests follow two.", "anchors": ["src/frames/data_frame/builder.rs"]}
{"id": "C30", "title": "A-MSDU subframes written one after another are read back as the same sequence", "statement": "Concatenated written subframes iterate back to the same addresses and payloads in order; iteration over arbitrary bytes never panics; the reported size equals the bytes written; the length field is big-endian as the standard prescribes.", "quantifier": "for all lists of subframes and all byte strings", "why_tests_cant": "Unbounded lists, every padding residue.", "anchors": ["src/frames/data_frame/amsdu.rs"]}
{"id": "C31", "title": "Crypto header: packet number and key id survive", "statement": "CryptoHeader accepts exactly packet numbers below 2^48 and key ids below 4, writes PN0 PN1 reserved key-id-octet PN2..PN5 with the extended IV bit set, and parsing returns the same packet number and key id.", "quantifier": "for all packet numbers and key ids, all 8-byte inputs", "why_tests_cant": "2^50 values; test uses one.", "anchors": ["src/crypto/crypto_header.rs: CryptoHeader"]}
{"id": "C32", "title": "Encrypted payload wrapper: header, payload, MIC boundaries", "statement": "A wrapped payload is written as crypto header, payload, MIC-length zero bytes and parses back to header and payload with the MIC excluded; buffers or inputs too short are reported as errors, not panics.", "quantifier": "for all payloads, MIC lengths 0/8/16, all inputs", "why_tests_cant": "All input lengths.", "anchors": ["src/crypto/crypto_header.rs: CryptoWrapper", "src/frames/data_frame/mod.rs: potentially_wrapped_payload"]}
{"id": "C33", "title": "Michael computes the standard's function for every message length and is invertible per block", "statement": "michael(key,data) equals the specification's computation (little-endian words, 0x5a and zero padding to a multiple of four, block function of rotations, swap and additions), for every message length; the block function is a bijection so different states stay different.", "quantifier": "for all keys and all messages", "why_tests_cant": "Four test vectors only; padding has four residue classes and any length.", "anchors": ["src/crypto/michael.rs"]}
{"id": "C34", "title": "PRF output has exactly the requested length and depends only on its inputs as in the standard", "statement": "The PRF fills exactly the requested output with the concatenation of HMAC(K, label 00 data i) for i = 0,1,2..., truncated; shorter outputs are prefixes of longer ones; PTK length is KCK+KEK+TK.", "quantifier": "for all keys, labels, data, lengths up to 256 blocks, and any HMAC", "why_tests_cant": "Length is arbitrary; tests have one vector.", "anchors": ["src/crypto/key_mgmt.rs: prf_iter, prf, derive_ptk"]}
{"id": "C35", "title": "PTK derivation is the same on both sides of the handshake", "statement": "Swapping the two stations' addresses together with their nonces gives the same PTK; the derivation input is min(AA,SPA) max(AA,SPA) min(nonces) max(nonces).", "quantifier": "for all addresses, nonces, PMKs, suites", "why_tests_cant": "Symmetry over all pairs.", "anchors": ["src/crypto/key_mgmt.rs: derive_ptk, sort_lexicographically"]}
{"id": "C36", "title": "Partitioning a PTK gives disjoint, adjacent, complete KCK, KEK, TK", "statement": "partition_ptk returns three pieces of the lengths given by the AKM and cipher suite whose concatenation is a prefix of the PTK and is all of a derived PTK; returns None exactly when a length is unknown or the PTK is too short; never panics.", "quantifier": "for all PTKs, all AKM and cipher selectors", "why_tests_cant": "All selectors and lengths.", "anchors": ["src/crypto/key_mgmt.rs: partition_ptk"]}
{"id": "C37", "title": "EAPOL-Key frame round trip and layout", "statement": "Writing an EAPOL-Key frame and parsing it with the same AKM gives the same frame; all multi-byte fields are big-endian at their standard offsets; body length and key data length fields equal the actual lengths; frames with other version/type/descriptor are errors; arbitrary input never panics.", "quantifier": "for all field values and key data, all byte strings", "why_tests_cant": "All key data lengths and MIC lengths.", "anchors": ["src/crypto/eapol.rs: EapolKeyFrame"]}
{"id": "C38", "title": "EAPOL field ranges point at the MIC and key data of the written frame", "statement": "The MIC range and key data range computed for a data frame carrying an EAPOL-Key frame select exactly the MIC bytes and key data bytes of the serialised frame.", "quantifier": "for all headers, MIC lengths and key data", "why_tests_cant": "Offsets depend on header variants and lengths.", "anchors": ["src/crypto/eapol.rs: eapol_mic_range, eapol_key_data_length_range, eapol_key_data_range"]}
{"id": "C39", "title": "Serialising and deserialising a protected EAPOL frame are inverse", "statement": "With the same KCK/KEK, deserialising what serialise produced returns the frame with the original key data followed only by the key-wrap padding; nothing panics on arbitrary received bytes.", "quantifier": "for all frames, keys and any AES key wrap / HMAC with their inverse laws", "why_tests_cant": "All key data lengths (padding), all inputs.", "anchors": ["src/crypto/key_mgmt.rs: serialize_eapol_data_frame, deserialize_eapol_data_frame"]}
{"id": "C40", "title": "An EAPOL frame whose MIC does not match is never accepted", "statement": "deserialise accepts a frame with the MIC flag only if the MIC field equals the MIC computed over the frame with the MIC field zeroed; on mismatch it returns the MIC error; key data is not handed out unless that check passed.", "quantifier": "for all received bytes, keys, any HMAC", "why_tests_cant": "Security property over all inputs.", "anchors": ["src/crypto/key_mgmt.rs: deserialize_eapol_data_frame"]}
{"id": "C41", "title": "Parsing received bytes never panics", "statement": "For each parser in the library, parsing any byte string returns a value or an error.", "quantifier": "for all byte strings, per parser", "why_tests_cant": "Arbitrary input; no fuzzing in the repository.", "anchors": ["every TryFromCtx in src/"]}
{"id": "C42", "title": "Fixed-layout parsers ignore bytes after what they consume", "statement": "If a fixed-layout parser succeeds on some bytes, it succeeds with the same value and consumed count on those bytes followed by anything; and if it consumed n bytes it gives the same result on just those n bytes.", "quantifier": "for all byte strings and all suffixes", "why_tests_cant": "Quantifies over pairs of inputs.", "anchors": ["src/frames/mgmt_frame/header.rs", "src/elements fixed-size parsers"]}
{"id": "C43", "title": "Reported consumed length never exceeds the input", "statement": "A parser that succeeds reports a consumed length of at most the input length, so that slicing the input at the reported offset is always valid.", "quantifier": "for all byte strings, per parser", "why_tests_cant": "Truncated inputs at every length.", "anchors": ["every TryFromCtx in src/"]}
{"id": "C44", "title": "ReadIterator yields exactly the items of the bytes, its len() is the number of items left", "statement": "Iterating over written fixed-size items yields them; the exact-size length equals the number of items the iteration will yield; iteration is fused.", "quantifier": "for all item lists and byte strings", "why_tests_cant": "Length relation over all inputs; never tested.", "anchors": ["src/common/read_iterator.rs"]}
{"id": "C45", "title": "A frame assembled incrementally equals the frame written at once", "statement": "DynamicManagementFrame: creating from a header and body, adding elements one at a time and finishing gives byte for byte the frame written with all those elements chained, including the FCS. A typed frame made dynamic and finished at once is the frame as written.", "quantifier": "for all bodies and all element lists", "why_tests_cant": "Unbounded sequences of additions.", "anchors": ["src/frames/mgmt_frame/mod.rs: DynamicManagementFrame"]}
{"id": "C46", "title": "HT MCS set: reading supported indices returns exactly the bits set, building from indices sets exactly them", "statement": "The set of indices reported as supported equals the set bits 0..=76 of the bitmap, and building a bitmap from a set of indices reports exactly this set.", "quantifier": "for all 2^77 bitmaps and all index sets", "why_tests_cant": "Size of the space.", "anchors": ["src/elements/ht/mcs_set.rs"]}
{"id": "C47", "title": "Rate encoding: kbit/s to 500-kbit/s units and back", "statement": "A rate that is a multiple of 500 kbit/s up to 63500 converts to its encoding and back unchanged with the basic/required flag kept; other inputs do not panic.", "quantifier": "for all rates and flags", "why_tests_cant": "All 2^32 inputs.", "anchors": ["src/elements/rates: EncodedRate"]}
{"id": "C48", "title": "Raw vendor and generic action bodies round trip and match only their category", "statement": "Writing a raw or vendor-specific action body and parsing gives the same body; matching selects it iff the category (and OUI or action code) is equal; measure is exact.", "quantifier": "for all payloads and OUIs", "why_tests_cant": "Arbitrary payloads.", "anchors": ["src/frames/mgmt_frame/body/action"]}
{"id": "C49", "title": "Data frames round trip through header, payload and FCS", "statement": "Writing a data frame whose payload is present exactly when its subtype carries one and parsing it gives the same header and payload, with and without FCS; measure is exact.", "quantifier": "for all headers, payloads, FCS flags", "why_tests_cant": "All subtypes and flag combinations.", "anchors": ["src/frames/data_frame/mod.rs"]}
{"id": "C50", "title": "PMKID derivation and PMK derivation inputs are the standard's", "statement": "PMKID is the first 16 bytes of HMAC(PMK, 'PMK Name' AA SPA); PMK from a passphrase uses the SSID as salt, 4096 iterations and 32 bytes.", "quantifier": "for all inputs and any HMAC/PBKDF2", "why_tests_cant": "One test vector only.", "anchors": ["src/crypto/key_mgmt.rs: generate_pmkid, map_passphrase_to_psk"]}
{"id": "C51", "title": "Transmit MCS set conditions follow the standard's table and exclude each other", "statement": "is_tx_mcs_undefined, is_tx_rx_mcs_defined_equal and may_tx_mcs_set_differ_from_rx are true exactly for the flag combinations the table gives to 'no Tx MCS set defined', 'Tx set equal to Rx set' and 'Tx set may differ', and no two of them are true at once.", "quantifier": "all 2^32 flag words", "why_tests_cant": "the repository has no test of these predicates; a test samples flag words, the claim is about every combination of the four fields", "anchors": ["src/elements/ht/mcs_set.rs: SupportedMCSSetFlags"]}
{"id": "C52", "title": "Frame type matching and data subtype predicates say what the wire bits say", "statement": "FrameType::type_matches is true exactly when the two type bits of the frame control fields agree. DataFrameSubtype::is_qos, has_payload (not null) and the CF-Ack / CF-Poll predicates are true exactly when the corresponding bit of the four-bit data subtype field is set.", "quantifier": "all pairs of frame types (including unknown ones) and all sixteen data subtypes", "why_tests_cant": "The repository tests no subtype predicate; the claim ranges over all pairs of types and every subtype, including the reserved one.", "anchors": ["src/common/mod.rs: FrameType::type_matches", "src/common/subtypes/data.rs: data_frame_cf, is_qos, has_payload", "src/frames/data_frame/header.rs"]}
{"id": "C53", "title": "EAPOL recognition is exact", "statement": "GenericFrame::is_eapol_key_frame never panics and returns true exactly for data frames that carry a payload with the EAPOL ethertype behind the LLC and SNAP bytes, located by the header length the first two bytes determine; and it is true only for EAPOL-Key packets.", "quantifier": "all frames of at least ten bytes", "why_tests_cant": "A test holds one accepted frame; rejecting every other payload is a statement about all byte strings.", "anchors": ["src/frames/mod.rs: GenericFrame::is_eapol_key_frame"]}
{"id": "C54", "title": "Every element type travels under its own identifier", "statement": "For each element type: wrapping a value writes the identifier the standard assigns, the length and the body; a chain holding it first of its type is written as the concatenation of its items; and looking that type up in any element area whose first element with that identifier is this item returns an equal value. The identifiers are pairwise different except for vendor elements. Raw and extended raw elements keep identifier, extended identifier and payload.", "quantifier": "all values of every element type, all element areas before and after it", "why_tests_cant": "Tests write and read single elements in isolation; the claim is about any surrounding elements and every field value.", "anchors": ["src/elements/element_chain.rs", "src/elements/mod.rs", "src/elements/ssid.rs: Element impl", "src/elements/rsn.rs: Element impl", "src/elements/tim.rs: Element impl", "src/elements/vht.rs: Element impl", "src/elements/rates/supported_rates.rs: Element impl", "src/elements/rates/extended_supported_rates.rs: Element impl", "src/elements/ht/capabilities.rs: Element impl", "src/elements/ht/operation.rs: Element impl", "src/elements/mesh/mesh_configuration.rs: Element impl", "src/elements/mesh/mesh_peering_management.rs: Element impl", "src/elements/owe_transition.rs: Element impl"]}
{"id": "C55", "title": "Comparing elements is exact whatever holds their lists", "statement": "Comparing two RSN elements, two rates elements or two TIM elements gives true exactly when all fields are equal and the lists have the same items in the same order, whether a list is an array, a slice or an iterator over received bytes. The comparison never panics on values that can be parsed or built, is reflexive, symmetric and transitive across containers, and an element that was written and parsed compares equal to the original. Elements that compare equal are written as the same bytes and report the same size.", "quantifier": "all elements, all lists, all received bytes", "why_tests_cant": "Tests compare single elements with themselves; being an equivalence across container kinds is a statement about all triples of elements.", "anchors": ["src/elements/rsn.rs: PartialEq for RsnElement, compare_list_option!", "src/elements/rates/supported_rates.rs: PartialEq", "src/elements/rates/extended_supported_rates.rs: PartialEq", "src/elements/tim.rs: PartialEq for TIMBitmap, TIMElement"]}
{"id": "C56", "title": "Protected EAPOL handling names the cause of every refusal", "statement": "The eight EapolSerdeError values are distinct. Sending: a temporary buffer under 24 bytes, a missing payload, an output buffer too short for the frame or for its padded key data, and a missing key for the MIC or the key data are each refused with the error of that cause. Receiving: an incomplete header, ether type, key information, MIC or key data length, another ether type, an unknown AKM suite, missing keys and an unparsable key frame are each refused with the error of that cause. No refusal is a panic, and data that fails to unwrap is not blamed on the buffer.", "quantifier": "all frames, keys, buffers and received bytes", "why_tests_cant": "The crate has one EAPOL test, of the success path; each refusal depends on lengths and flags in combination.", "anchors": ["src/crypto/key_mgmt.rs: EapolSerdeError", "src/crypto/key_mgmt.rs: serialize_eapol_data_frame", "src/crypto/key_mgmt.rs: deserialize_eapol_data_frame"]}
{"id": "C57", "title": "Accessors of received management bodies agree with what was sent", "statement": "length_in_bytes of a parsed body is the number of bytes it was parsed from. The beacon interval is converted at 1024 microseconds per unit without overflow and the timestamp is the number in the first eight bytes. ssid() returns the payload of the first element 0 that is at most 32 bytes of UTF-8, None exactly when there is none, and never panics. A beacon or probe response built from a network name, written with or without check sequence and read back, has the same header and fields and ssid() returns that name.", "quantifier": "all received bytes; all headers, fields, names and surrounding elements", "why_tests_cant": "The tests look up one name in one recorded beacon; the claim covers every arrangement of elements, including malformed names before the right one.", "anchors": ["src/frames/mgmt_frame/body/beacon.rs: length_in_bytes, ssid, beacon_interval_as_duration, timestamp_as_duration", "src/frames/mgmt_frame/body/probe.rs: length_in_bytes, ssid", "src/frames/mgmt_frame/body/assoc.rs, auth.rs, disassoc.rs, deauth.rs: length_in_bytes"]}
{"id": "C58", "title": "Containers of received bytes give back those bytes, and views show the right part", "statement": "Iterators, element lists and data payloads read from input report the input's length and are written as the input; the subframe iterator's length falls by exactly the padded subframe; the payload view is the content with or without protection; the VHT receive and transmit maps are bytes 4-5 and 8-9 of the element; the group-traffic TIM is [count, period, 1, 0] and announces no station; the default crypto header is packet number 0 and key 0. The sizes that selectors, PMKIDs and the DSSS parameter set report for their types are the bytes written for every value and consumed from every accepted input; a subframe reports its length without padding; assigning the contents of a payload changes the contents and nothing else.", "quantifier": "all inputs, iterator states, frames and parameters", "why_tests_cant": "The views are never compared with byte positions in any test, and a swapped receive and transmit map goes unnoticed whenever both are equal.", "anchors": ["src/elements/vht.rs:123-139", "src/frames/data_frame/mod.rs:29-148", "src/frames/data_frame/amsdu.rs:83-117", "src/common/read_iterator.rs", "src/elements/tim.rs:410-416", "src/crypto/crypto_header.rs", "src/elements/rsn.rs:111-116", "src/elements/rsn.rs:396-405", "src/elements/dsss_parameter_set.rs:14-18", "src/frames/data_frame/amsdu.rs:21-26", "src/frames/data_frame/mod.rs:92-98"]}
{"id": "C59", "title": "The frame check refuses every burst of up to 32 wrong bits", "statement": "With CRC-32 as IEEE 802.11 defines it, a frame that the crate accepts with its check sequence is refused with BadInput after any change confined to 32 neighbouring bits in transmission order, anywhere in the frame and its check sequence; in particular after any change within four neighbouring bytes. This holds for the check itself, for every management frame, for data frames, for GenericFrame and for match_frames, and for every frame whose check sequence the crate attached.", "quantifier": "all frames of every length, all bursts of at most 32 bits at every position", "why_tests_cant": "There are 2^32 patterns at each of up to 18000 positions of each frame; a test can flip a few bits of a few frames. The claim needs the algebra of the polynomial, and breaks if the bit order, the byte order of the stored value or the range it covers is wrong.", "anchors": ["src/common/mod.rs", "src/frames/mgmt_frame/mod.rs", "src/frames/data_frame/mod.rs", "src/frames/mod.rs"]}
{"id": "C60", "title": "Protected key data under the actual AES key wrap", "statement": "With AES-128 (FIPS 197) and RFC 3394 as the key wrap, unwrapping accepts exactly wrapped data; a protected EAPOL frame that is accepted holds exactly the wrap of the key data handed out, so key data changed on the way is refused or gives other key data; what the serialiser writes behind the length field is the wrap of the padded key data, and the receiver recovers it. wrap_eapol_key_data fills its output with a wrap that the receiver accepts.", "quantifier": "all keys, key data of every length, received frames and buffers", "why_tests_cant": "The inverse property ranges over 2^128 keys and unbounded data; the crate's one test vector does not show that nothing else is accepted, and no test calls wrap_eapol_key_data.", "anchors": ["src/crypto/key_mgmt.rs:157-178", "src/crypto/key_mgmt.rs:183-405"]}
{"id": "C61", "title": "The macros for rates and names accept what fits and encode it exactly", "statement": "rate! encodes every multiple of 0.5 below 64 exactly, and every literal with up to four decimal places rounded down to such a multiple, with the flag given, although it computes in single precision; larger and negative literals do not compile. supported_rates! and extended_supported_rates! accept exactly up to 8 and 251 rates and give the element that new gives, whose bytes are the encoded rates in order. ssid! and mesh_id! accept exactly the strings that new accepts. A frame type survives its conversion to 16 bits, and a new HT-SIG has only its reserved bit set.", "quantifier": "all rational literals, lists of rates of every length, all strings, all 16-bit values", "why_tests_cant": "The doc tests use four literals. Whether single precision can push a rate to the next step is a question about all literals, and a macro that fails to compile cannot be enumerated by a test.", "anchors": ["src/elements/rates/supported_rates.rs:108-185", "src/elements/rates/extended_supported_rates.rs:107-146", "src/elements/ssid.rs:168-210", "src/common/mod.rs:86-95", "src/common/sig.rs:3-32"]}
{"id": "C62", "title": "Text written by the crate shows the value", "statement": "The text of an encoded rate shows its value in Mbit/s and whether it is a B rate, that of a PMKID its 32 hexadecimal digits, that of an AID its number, that of a name the name itself. The text of a TIM bitmap shows 0 for group traffic and then the AIDs, as one list, to a formatter and to a logger; that of a TIM element also its DTIM count and period. Different rates and PMKIDs give different texts. The items of received bytes are shown as one list in order, to a formatter and to a logger; a VHT MCS map is shown as its eight ranges, so that different maps give different texts; an OWE transition element is shown with its channel exactly if it has one.", "quantifier": "all rates, PMKIDs, AIDs, names, TIM bitmaps and TIM elements", "why_tests_cant": "No test formats these values. Injectivity over 2^128 PMKIDs and the list of up to 2007 AIDs cannot be enumerated.", "anchors": ["src/elements/rates/mod.rs:40-49", "src/elements/rsn.rs:370-374", "src/elements/ssid.rs:98-107", "src/elements/tim.rs:286-315", "src/elements/tim.rs:520-533", "src/common/aid.rs:49-53", "src/common/read_iterator.rs:33-61", "src/elements/vht.rs:118-122", "src/elements/owe_transition.rs:40-53", "src/elements/tim.rs:534-545"]}
{"id": "C63", "title": "Key data of a protected handshake message reaches the other side", "statement": "Authenticator and supplicant, each deriving the PTK from its own point of view, get the same three keys. A frame whose key data is a chain of elements, written with these keys as an encrypted EAPOL key frame, is accepted by the other side with all fields as they were, and looking for any element in the received key data gives what it gives in the chain that was sent; in particular the RSN element and the group key of message 3.", "quantifier": "all master keys, addresses, nonces, AKM and cipher suites with 16-byte keys, headers, chains of elements of any length that fit, group keys of up to 249 bytes and buffers that are large enough", "why_tests_cant": "The claim joins key derivation, partition, key wrap, padding, MIC and element lookup over all inputs; the crate's tests exercise single recorded frames, and none looks up elements in padded key data whose length depends on the chain.", "anchors": ["src/crypto/key_mgmt.rs:116-153", "src/crypto/key_mgmt.rs:183-405", "src/elements/element_chain.rs:30-199", "src/elements/kde.rs:77-113", "src/elements/rsn.rs:855-862"]}
{"id": "C64", "title": "Elements that compare equal have the same hash", "statement": "For the types whose comparison is written by hand and whose Hash is derived (supported rates, extended supported rates, RSN element, TIM bitmap and TIM element): two values of the same type that compare equal make the same calls to any hasher, and so have the same hash. Conversely, two values of the same type that make the same calls to a hasher are the same value, so no field is left out of the hash.", "quantifier": "all hashers, all lists of rates, all RSN elements over arrays and all received ones, all received TIM elements, and all TIM elements whose bitmap was made by new_static or tim_bitmap! from any list or range of AIDs", "why_tests_cant": "The crate has no test of Hash; the contract relates two separately written traversals over all pairs of equal values, and fails only for pairs with bytes which one of them skips.", "anchors": ["src/common/read_iterator.rs:8-13", "src/elements/rates/supported_rates.rs:13-65", "src/elements/rates/extended_supported_rates.rs:13-65", "src/elements/rsn.rs:408-435", "src/elements/rsn.rs:674-702", "src/elements/tim.rs:93-177", "src/elements/tim.rs:316-324", "src/elements/tim.rs:490-502", "src/elements/tim.rs:546-559"]}
{"id": "C65", "title": "A frame that is sent arrives in the arm of its own type", "statement": "A management, action or data frame that is written and whose bytes are given to match_frames!, with or without check sequence, runs the block of the arm for its own type, whatever arms for other types come before it and whatever arms come after it. The block gets the header and the fields that were sent, and the elements it gets are those of the chain that was sent.", "quantifier": "all headers whose HT control field agrees with the order bit, all bodies with canonical codes, all chains of elements, all payloads, all lists of arms of any length, all buffers that are large enough", "why_tests_cant": "The dispatch depends on where the header ends, on the category and action code and on the order of the arms; a test fixes one frame and one list of arms.", "anchors": ["src/frames/mod.rs:115-143", "src/frames/mod.rs:161-208", "src/frames/mgmt_frame/mod.rs:60-158", "src/frames/mgmt_frame/body/mod.rs:26-81", "src/frames/data_frame/mod.rs:106-234"]}
{"id": "C66", "title": "EAPOL key frames are recognised", "statement": "The bytes made by serialize_eapol_data_frame, with a check sequence appended or not, are accepted by GenericFrame::new, is_eapol_key_frame is true of them, match_frames! hands them to the first arm for data frames with the header that was sent and the LLC/SNAP payload, and deserialize_eapol_data_frame returns the key frame. Conversely, whatever deserialize_eapol_data_frame accepts is recognised by is_eapol_key_frame.", "quantifier": "all keys, headers, key frames and key data that fit, all lists of arms, all buffers that are large enough; for the converse all byte strings, keys and AKM suites", "why_tests_cant": "Two separately written parsers (one over the header and offsets, one over the typed frame) must agree on where the payload starts, for all header layouts and subtypes; the tests have one recorded frame.", "anchors": ["src/crypto/key_mgmt.rs:183-405", "src/frames/mod.rs:144-160", "src/frames/mod.rs:161-208", "src/frames/data_frame/header.rs:16-313"]}
{"id": "C67", "title": "Exactly which values survive being written and read", "statement": "A value that is written and read again comes back unchanged exactly if it meets the side conditions of its round trip: enum values that are not Unknown with the number of a named variant, optional header fields that are there when the flags and the subtype say so, a payload where the subtype carries one, a MIC of the length of the AKM and lengths that fit their fields, elements or key data at the end where the scroll rule asks for them. A value that does not meet them is written without error but is not read back.", "quantifier": "all values of each type, all buffers that are large enough, all bytes that follow, both scroll rules", "why_tests_cant": "Round-trip tests try values that survive; that every value outside the stated conditions is lost is a claim about all of them, and a parser that repaired some of them would go unnoticed.", "anchors": ["src/frames/mgmt_frame/header.rs:9-85", "src/frames/mgmt_frame/mod.rs:60-158", "src/frames/data_frame/header.rs:16-313", "src/frames/data_frame/mod.rs:106-234", "src/frames/control_frame/mod.rs:13-174", "src/crypto/eapol.rs:95-211", "src/elements/rsn.rs:718-854"]}
{"id": "C68", "title": "Aggregated, encrypted and built data frames arrive as they were sent", "statement": "An A-MSDU or a single payload that is put into a data frame, encrypted or not, written with or without a check sequence and handed to match_frames! reaches the arm for data frames with the header that was sent (with the protected flag if encrypted); taking the payload there gives the subframes or bytes that were sent, and for an encrypted frame the packet number and key id. A frame made with the builder arrives with the payload, flags and role addresses that were given.", "quantifier": "all headers that agree with their flags and subtype, all lists of subframes, all payload writers, all crypto headers, both MIC lengths, all builder programs, all arms before and after, all buffers that are large enough, both scroll rules", "why_tests_cant": "The way leads through the builder, the subframe writer with its padding, the crypto wrapper, the frame writer, the dispatch macro and three readers; tests exercise these one at a time with a few payloads.", "anchors": ["src/frames/data_frame/amsdu.rs:11-161", "src/frames/data_frame/mod.rs:106-234", "src/frames/data_frame/builder.rs:120-798", "src/crypto/crypto_header.rs", "src/frames/mod.rs:166 match_frames!"]}
{"id": "C69", "title": "A frame that is received can be sent on unchanged", "statement": "What the parser of a frame type accepts, handed to the writer of the same type, comes out with the same bytes, check sequence included. The theorems say exactly for which inputs: management frames if the first byte is that of version zero and the type's own subtype (and the two top bits of an association ID were set), data frames if the version is zero and nothing follows the header of a subtype without payload, control frame bodies always, EAPOL key frames if the version is 2, the reserved octets are zero and nothing follows the key data.", "quantifier": "all byte strings the parsers accept, all buffers that are large enough, with and without check sequence, all check sequence functions, both scroll rules", "why_tests_cant": "The round-trip macro of the tests starts from values the tests construct, so it only sees bytes the library itself wrote; bytes from other senders with other versions, reserved bits or trailing data never occur.", "anchors": ["src/frames/mgmt_frame/mod.rs", "src/frames/mgmt_frame/body/", "src/frames/data_frame/mod.rs:183-234", "src/frames/control_frame/mod.rs", "src/crypto/eapol.rs:95-210"]}
{"id": "C70", "title": "What surrounds an element does not matter", "statement": "The result of looking up an element ID depends only on the elements with that ID, in their order: other elements before, between or after them, whatever they hold, change nothing (for the lookups that parse, nor do elements with the ID that do not parse). Whole elements followed by any bytes are iterated over as those elements and then whatever the bytes give. Changing the contents of one element changes that element only. The elements of the first n bytes are exactly those that end within n bytes, so cutting off only takes elements away from the end and a lookup that succeeds on a part gives the same on the whole.", "quantifier": "all element lists, all byte strings before and after, all IDs, all element parsers, all cut positions, both scroll rules", "why_tests_cant": "Tests use a few captured frames; independence of everything that surrounds an element is a statement about pairs of inputs.", "anchors": ["src/elements/mod.rs:202-284 element_id_matches, raw_element_iterator, get_matching_elements, get_first_element", "src/common/read_iterator.rs", "src/frames/mgmt_frame/body/beacon.rs:42-47 ssid"]}
{"id": "C71", "title": "The byte order of the machine", "statement": "What a frame means does not depend on the byte order of the machine that reads or writes it: the same bytes are read as the same values everywhere, and what one machine writes another reads as it was meant. (The code violates this in four places: the duration and sequence control of data frame headers, the sequence control read generically, the RSN capabilities and the numbers of the mesh peering element. On a big-endian machine exactly these have their two bytes exchanged, and nothing else changes; the mesh peering element still round trips on one machine.)", "quantifier": "all byte strings, all data frame headers, RSN and mesh peering elements, both kinds of machine, both scroll rules", "why_tests_cant": "Tests run on one, little-endian, machine.", "anchors": ["src/frames/data_frame/header.rs:237-313 DataFrameHeader", "src/frames/mod.rs:103-113 GenericFrame::sequence_control", "src/elements/rsn.rs:730-763 RsnElement", "src/elements/mesh/mesh_peering_management.rs:47-248"]}
{"id": "C72", "title": "A whole four-way handshake", "statement": "Authenticator and supplicant with the same PMK, using only the functions of the crate in the order of the standard, complete the four-way handshake: each learns the other's nonce from a frame, both derive the same temporal key, the supplicant gets the group key and the RSN element that were sent encrypted in message 3, and every message is received with the fields it was sent with. With different PMKs the authenticator refuses message 2 for its MIC (unless the two MICs happen to coincide). (The code violates this under the strict offset rule of scroll, where the messages without key data, the first and the last as the standard has them, cannot be read back; there some key data has to be present.)", "quantifier": "all PMKs, addresses, nonces, AKM and cipher suites with 16-byte keys and MICs, data frame headers, RSN elements, group keys of up to 249 bytes, key data of messages 1, 2 and 4, buffer contents, both scroll rules, any HMAC, AES key wrap as in RFC 3394", "why_tests_cant": "A test runs one handshake with one set of keys; the order of derivation, MIC, wrapping, padding and element lookup has to fit together for all of them.", "anchors": ["src/crypto/key_mgmt.rs:205-386 serialize_eapol_data_frame, deserialize_eapol_data_frame", "src/crypto/key_mgmt.rs:116-175 derive_ptk, partition_ptk", "src/frames/data_frame/header.rs DataFrameHeader", "src/elements/mod.rs ReadElements::get_first_element"]}
{"id": "C73", "title": "Nothing a buffer held before is sent", "statement": "Writing into a buffer depends on its length only: the bytes written, their number, and any error or panic are the same whatever the buffer held, and the bytes behind what was written are left as they were. This holds for every element, field, body, header, frame, element chain, EAPOL frame and crypto wrapper, for management frames to which elements are added later, and for EAPOL frames that are padded, encrypted and authenticated in the buffer itself. (The code violates this for A-MSDUs: the padding of a subframe is skipped, not written, so old bytes of the buffer are sent; an A-MSDU depends on the buffer exactly when one of its subframes needs padding.)", "quantifier": "all values of all types the crate can write, with any contents of the user's own types that have the property themselves, all buffers, all keys, both scroll rules", "why_tests_cant": "Tests write into zeroed buffers, where padding that is skipped looks like padding that is written.", "anchors": ["src/frames/data_frame/amsdu.rs:54-75 AMSDUSubframe::try_into_ctx", "src/elements/rsn.rs:807-854 RsnElement::try_into_ctx", "src/crypto/eapol.rs:174-215 EapolKeyFrame::try_into_ctx", "src/crypto/key_mgmt.rs:205-302 serialize_eapol_data_frame", "src/frames/mgmt_frame/mod.rs:161-204 DynamicManagementFrame", "src/crypto/crypto_header.rs CryptoWrapper"]}
{"id": "C74", "title": "A release build computes what a debug build computes", "statement": "Every function of the crate with an operation that can overflow, or with a bit-field setter whose argument may not fit, returns in a release build (no overflow checks, no debug assertions) the same value or error as in a debug build whenever the debug build does not panic; and where the debug build panics, the release build panics or returns an error instead of going on with a wrong value. (The code violates the second half for rates, association IDs, data frame subtypes, maps of VHT rates and very long traffic indication maps.)", "quantifier": "all rates, association IDs, frame types, lists of VHT levels, traffic indication maps, data and management frames, buffers, keys and inputs", "why_tests_cant": "The crate's tests are run in one kind of build; the inputs that differ lie just beyond the ranges tests use (a rate of 64 Mbit/s, a fifth spatial stream, a frame of less than four bytes), and showing that there are no others needs all inputs of both builds.", "anchors": ["src/elements/rates/mod.rs: EncodedRate::from_rate_in_kbps", "src/common/aid.rs: AssociationID::new_unchecked", "src/common/mod.rs: FrameControlField::with_frame_type, strip_and_validate_fcs", "src/elements/vht.rs: VHTMCSMap::from_vht_mcs_iter", "src/elements/tim.rs: TIMBitmap::aid_iter", "src/frames/data_frame/mod.rs: DataFrame::try_into_ctx", "src/frames/mgmt_frame/mod.rs: ManagementFrame::try_into_ctx", "src/crypto/crypto_header.rs: CryptoWrapper::try_from_ctx", "src/crypto/key_mgmt.rs: deserialize_eapol_data_frame"]}
{"id": "C75", "title": "What the caller finds in the buffer after an EAPOL call", "statement": "deserialize_eapol_data_frame leaves the caller's buffer as it was whenever it returns an error, so the caller can try again with other keys; when it returns a frame, the buffer is unchanged unless the frame is flagged as encrypted, and then only the body length, the key data length and the key data have changed. serialize_eapol_data_frame, when it refuses a frame, leaves no key data in the clear. (The code violates the first claim when the decrypted frame cannot be read, and the last when the key encryption key is missing.)", "quantifier": "for all buffers, keys, AKM suites, temporary buffer lengths and frames, for every HMAC and key wrap", "why_tests_cant": "the tests look at the value returned and never at the buffer after an error; the claim concerns every input on which an error is returned", "anchors": ["src/crypto/key_mgmt.rs: deserialize_eapol_data_frame", "src/crypto/key_mgmt.rs: serialize_eapol_data_frame"]}
{"id": "C76", "title": "A larger buffer never changes what is written, and writing does not panic", "statement": "Whatever the crate can write: if it fits into a buffer then it fits into every buffer that is at least as long, the same bytes are written, their number is the same and the rest of the buffer is left alone. So there is one size such that writing fails in all smaller buffers and succeeds in all others, or writing fails always. Failing means an error and not a panic.", "quantifier": "for all values of all types that can be written, nested in any way (elements in chains in bodies in frames, with or without check sequence; management frames to which elements are added later), all buffers and all contents", "why_tests_cant": "A test writes into one buffer of the right size; the claim compares every pair of buffer lengths, and includes every buffer that is too small, at each of the places where writing can stop.", "anchors": ["/repo/src/elements/mod.rs: WrappedIEEE80211Element::try_into_ctx", "/repo/src/elements/element_chain.rs: ElementChain::try_into_ctx", "/repo/src/frames/mgmt_frame/mod.rs: ManagementFrame::try_into_ctx, DynamicManagementFrame", "/repo/src/frames/data_frame/mod.rs: DataFrame::try_into_ctx", "/repo/src/elements/tim.rs: TIMBitmap::try_into_ctx", "/repo/src/elements/rsn.rs: RsnElement::try_into_ctx", "/repo/src/crypto/crypto_header.rs: CryptoWrapper::try_into_ctx", "/repo/src/crypto/eapol.rs: EapolKeyFrame::try_into_ctx"]}
{"id": "C77", "title": "Traffic announced by an access point is seen by its stations", "statement": "An access point gives a station an association ID in its association response. Later it sends a beacon whose TIM announces traffic, with any elements before and after the TIM, with or without check sequence. The station that reads the response has the number it was given, and the station that reads the beacon finds its number among the association IDs of the TIM exactly if the access point announced traffic for it. The counter, the interval and the flag for group traffic arrive too.", "quantifier": "for all headers, bodies, other elements, sets of association IDs, all ways of building the bitmap (bytes, tim_bitmap! with a list and with a range, new_static), all buffers that are large enough", "why_tests_cant": "The claim is about two programs that talk to each other, and about every set of up to 2007 stations among arbitrary other elements; tests cover a few bitmaps and do not send them in a frame.", "anchors": ["/repo/src/elements/tim.rs: TIMElement, TIMBitmap::aid_iter, TIMBitmap::new_static, tim_bitmap", "/repo/src/common/aid.rs: AssociationID::new_checked", "/repo/src/frames/mgmt_frame/body/assoc.rs: AssociationResponseBody", "/repo/src/frames/mgmt_frame/body/beacon.rs: BeaconLikeBody", "/repo/src/elements/mod.rs: ReadElements::get_first_element", "/repo/src/frames/mod.rs: match_frames"]}
{"id": "C78", "title": "The error of a parser tells a cut input from an invalid one", "statement": "A parser rejects an input in one of two ways: it says that the input is too short, or that it is invalid. What is called invalid stays invalid whatever bytes are appended, so the beginning of something valid is never called invalid. What is called too short is shorter than a number of bytes which is known for the parser, so that waiting for more bytes comes to an end; and nothing with fewer bytes than the parser's fixed part is accepted.", "quantifier": "for all inputs and all bytes appended to them; the thirteen management frame bodies, management, data and control frames and headers, elements with fixed fields, single elements and subframes as such, the crypto header, EAPOL key frames", "why_tests_cant": "The claim compares the result for an input with the results for all its continuations; tests look at complete frames, and where they check an error they do not check which one.", "anchors": ["/repo/src/frames/mgmt_frame/body: the implementations of TryFromCtx", "/repo/src/frames/mgmt_frame/mod.rs: ManagementFrame::try_from_ctx", "/repo/src/frames/data_frame/mod.rs: DataFrame::try_from_ctx", "/repo/src/frames/control_frame/mod.rs: ControlFrame::try_from_ctx", "/repo/src/frames/mod.rs: GenericFrame::new, match_frames", "/repo/src/crypto/eapol.rs: EapolKeyFrame::try_from_ctx", "/repo/src/elements/ssid.rs: SSIDLikeElement::try_from_ctx", "/repo/src/common/mod.rs: strip_and_validate_fcs"]}
{"id": "C79", "title": "A header helper that fails leaves the offset where it was", "statement": "The two public helpers for the header of a vendor specific action body take the offset by reference. A call that succeeds moves it behind the header; a call that fails leaves it, and the buffer written to, as they were, so that the call can be repeated with another OUI or a longer buffer.", "quantifier": "for all inputs, buffers, offsets and OUIs", "why_tests_cant": "The offset after an error is not looked at by any test, and the outcome depends on which of the checks failed and on how many bytes were left.", "anchors": ["/repo/src/frames/mgmt_frame/body/action/vendor.rs: strip_and_check_vendor_action_header", "/repo/src/frames/mgmt_frame/body/action/vendor.rs: append_vendor_action_header"]}
{"id": "C80", "title": "Values compare as what they stand for", "statement": "The types with a derived `Ord` are totally ordered, equal in the order exactly when equal, and the order is that of the quantity: the crypto header of an earlier packet is less than that of a later one under the same key, a shorter MIC than a longer one, a shorter ATIM window than a longer one, a lower key descriptor version than a higher one, an EAPOL key frame with a lower replay counter than one with a higher one.", "quantifier": "for all pairs of values", "why_tests_cant": "No test compares two values for order, and a derived comparison goes by the layout of the fields, which agrees with the numbers for most pairs one would try.", "anchors": ["/repo/src/crypto/crypto_header.rs: CryptoHeader, MicState, CryptoWrapper", "/repo/src/frames/data_frame/mod.rs: PotentiallyWrappedPayload", "/repo/src/crypto/eapol.rs: KeyDescriptorVersion, KeyInformation, EapolKeyFrame", "/repo/src/elements/ibss_parameter_set.rs: IBSSParameterSetElement"]}
{"id": "C81", "title": "Default values can be sent and claim nothing", "statement": "The default of an element, body, header or frame, written into a buffer that is large enough, is read back as the same value. The enumerated fields of a default element hold the defaults of their own types, so that a default element claims no more than the default of each setting; default iterators and bitmaps hold nothing.", "quantifier": "for every type with a default that can be written, all buffers that are large enough, with and without check sequence", "why_tests_cant": "Tests build values with struct update syntax on top of the default and look at the fields they set; the default of a packed field is that of its bits and not that of its type, which no test compares.", "anchors": ["/repo/src/elements/ht/capabilities.rs: HTCapabilitiesElement, HTCapabilitiesInfo, SmPwSave", "/repo/src/elements/vht.rs: VHTMCSMap, VHTMCSSupport, VHTCapabilitiesElement", "/repo/src/elements/tim.rs: TIMElement, TIMBitmap", "/repo/src/frames/mgmt_frame/body/action/self_protected.rs: MeshPeeringConfirmBody", "/repo/src/frames/data_frame/mod.rs: DataFrame", "/repo/src/elements/owe_transition.rs: OWETransitionModeElement"]}
{"id": "C82", "title": "An element that cannot be added does no harm", "statement": "add_element of a dynamic management frame leaves the caller with the frame whether or not it succeeds. A failing call changes neither the offset nor the bytes before it, whatever the element's writer wrote before it failed. After any number of calls, some of which failed, the frame is the one there would be had only the successful calls been made: further calls succeed or fail alike, and finish gives the same bytes, check sequence included. The calls that succeed are those for which there is room behind the elements accepted before.", "quantifier": "for all frames, buffers, lists of elements of any length (the library's, or the user's whose writers do not look at the buffer), anything a failing writer may leave in the buffer, with and without check sequence", "why_tests_cant": "The example adds one element that fits; a test can try a few elements that do not fit but not every point at which a writer may give up, nor every sequence of successes and failures.", "anchors": ["/repo/src/frames/mgmt_frame/mod.rs: DynamicManagementFrame, new, add_element, finish, into_dynamic"]}
{"id": "C83", "title": "Ready-made RSN elements describe networks of the kind they are named after", "statement": "Each of the six RSN element constants, written to any buffer that is large enough, uses every cipher suite for the traffic the standard's cipher suite usage table allows it for, and announces the management frame protection its key management suites need: required if all of them demand it, offered but not required if some do, not required otherwise. The same holds of the constants' fields and of what the builder makes of them.", "quantifier": "for all six constants, all buffers that are large enough, and all lists of PMKIDs added by the builder", "why_tests_cant": "Tests compare a constant with its own bytes; that the bytes say what the name promises needs the standard's table and the rule for protected management frames.", "anchors": ["/repo/src/elements/rsn.rs: WPA_PERSONAL, WPA_WPA2_PERSONAL, WPA2_PERSONAL, WPA2_WPA3_PERSONAL, WPA3_PERSONAL, OWE, with_pmkid_list, OptionalFeatureConfig"]}
{"id": "C84", "title": "EAPOL frames are protected by the algorithms of their suite", "statement": "The MIC of an EAPOL key frame that is sent, and the MIC that is demanded of one that is received, is that of the integrity algorithm which the standard's table assigns to the key management suite and the descriptor version of the frame, and encrypted key data is encrypted with the algorithm of that table. A frame right by that table is accepted.", "quantifier": "for all frames that can be serialised, keys, suites and versions; on receipt for all headers, fields, key data and keys; the algorithms are parameters", "why_tests_cant": "Tests let the library check its own MICs, so that a wrong algorithm agrees with itself; the table and the other algorithms come from the standard.", "anchors": ["/repo/src/crypto/key_mgmt.rs: serialize_eapol_data_frame, deserialize_eapol_data_frame", "/repo/src/crypto/eapol.rs: KeyDescriptorVersion", "/repo/src/elements/rsn.rs: IEEE80211AkmType::key_mic_len"]}
{"id": "C85", "title": "The keys of a handshake are those of its suite", "statement": "For every key management suite whose PTK is the expansion of a PMK, deriving a PTK of the length of the suite and partitioning it gives the KCK, KEK and TK of the standard, that is of the PRF with HMAC-SHA-1 or of the KDF with SHA-256 or SHA-384 as the suite says, and these are keys that the functions for EAPOL frames take. The PMKID with the hash of the suite is that of the standard.", "quantifier": "for all PMKs, addresses and nonces, all suites of the standard's table and all cipher suites; the hash functions are those of FIPS 180-4", "why_tests_cant": "Tests derive both sides with the library, which agree whatever the function; the table of suites and the other hash functions come from the standard.", "anchors": ["/repo/src/crypto/key_mgmt.rs: derive_ptk, prf_iter, partition_ptk, generate_pmkid", "/repo/src/elements/rsn.rs: IEEE80211AkmType::kck_len, kek_len, IEEE80211CipherSuiteSelector::tk_len"]}
{"id": "C86", "title": "A group key handshake delivers each new group key once", "statement": "A group key that the authenticator sends as encrypted key data under KCK and KEK is the one that the supplicant takes out of the frame, and the acknowledgement comes back with the counter of the message. With messages lost, repeated, reordered and mixed with forged ones, a supplicant which follows the counter rule of the standard installs exactly the keys of the authenticator's messages that are newer than all before, never one twice, and ends with the newest; every key that an accepted frame holds comes from someone who has the KCK.", "quantifier": "for all keys, messages, group keys of up to 249 bytes, buffers with room, any schedule of deliveries of any length, any HMAC; AES key wrap of RFC 3394", "why_tests_cant": "The schedules of deliveries and the received bytes of an attacker are unbounded.", "anchors": ["/repo/src/crypto/key_mgmt.rs: serialize_eapol_data_frame, deserialize_eapol_data_frame", "/repo/src/elements/kde.rs: GtkKde, GtkInfo", "/repo/src/elements/mod.rs: ReadElements::get_first_element"]}
{"id": "C87", "title": "The HT-SIG of a transmission describes it", "statement": "For every transmission the first 32 bits of the HT-SIG field that the standard has for it read as that transmission: MCS, width, length, smoothing, sounding, aggregation, number of spatial streams, coding and guard interval; and the same bits are obtained by setting the fields of a new HT-SIG.", "quantifier": "for all transmissions: MCS 0 to 76, lengths below 65536, all flags, up to two extra space-time streams", "why_tests_cant": "The meaning of each bit comes from the figure and the MCS tables of the standard, and 2^27 transmissions are too many to list.", "anchors": ["/repo/src/common/sig.rs: HtSig"]}
{"id": "C88", "title": "The receive counter of a handshake message is a packet number", "statement": "The Key RSC field of an EAPOL-Key frame, documented as the current packet number of the transmitting party, has the value the sender's octets stand for under the standard (least significant octet first), so that a supplicant which compares the packet numbers of group frames with the field accepts exactly the newer ones; what is sent has the octets in the order of the standard.", "quantifier": "For all AKM types, all inputs the reader accepts, all frames the writer accepts, all packet numbers below 2^48 and all crypto headers.", "why_tests_cant": "2^48 packet numbers; a round trip through the same crate cannot show the order, and captures of a first handshake usually have an all-zero field, which reads the same in both orders.", "anchors": ["/repo/src/crypto/eapol.rs: EapolKeyFrame, key_rsc, TryFromCtx, TryIntoCtx", "/repo/src/crypto/crypto_header.rs: CryptoHeader::packet_number"]}
{"id": "C89", "title": "Changed security parameters are noticed", "statement": "The third message of the four-way handshake repeats the RSN element of the beacon under the protection of the MIC; a supplicant that compares it with the element it took from the (unprotected) beacon with the crate's parser and comparison goes on if and only if nobody changed the element, and the same holds for the authenticator with the association request and the second message.", "quantifier": "for all keys, RSN elements, group keys, key frames, beacons with any other elements and changed beacons of any bytes", "why_tests_cant": "The tests compare elements with themselves; that no changed element compares equal is a statement about all pairs of byte strings, and that the comparison is safe depends on framing, decryption, MIC and parser together.", "anchors": ["/repo/src/elements/rsn.rs: PartialEq for RsnElement, TryFromCtx for RsnElement", "/repo/src/elements/mod.rs: ReadElements::get_first_element", "/repo/src/crypto/key_mgmt.rs: serialize_eapol_data_frame, deserialize_eapol_data_frame", "/repo/src/frames/mgmt_frame/body/beacon.rs: BeaconLikeBody"]}
{"id": "C90", "title": "Encrypted frames are taken once, each under its own key", "statement": "A receiver that keeps a replay counter for each key and takes a data frame only if its packet number is above the counter of its key (12.5.2.4.4) takes, when it finds key and packet number with the crate's parser, exactly those of the frames a sender wrapped with the crate that it would take were it given key, number and contents directly; whatever bytes it receives, it takes no packet number twice under a key and does not panic.", "quantifier": "for all headers, MIC lengths, sequences of frames under any keys with any 48 bit packet numbers and contents, all replays and orders of them, and arbitrary received bytes", "why_tests_cant": "The tests wrap one frame under one key. Replay detection is about sequences of frames, and an error in the key only shows when a second key is used.", "anchors": ["/repo/src/crypto/crypto_header.rs: CryptoHeader::new, TryFromCtx for CryptoHeader, TryIntoCtx for CryptoHeader, CryptoWrapper", "/repo/src/frames/data_frame/mod.rs: DataFrame::potentially_wrapped_payload, DataFrame::crypto_wrap", "/repo/src/frames/mod.rs: match_frames"]}
{"id": "C91", "title": "Mesh stations agree on their peering", "statement": "Two mesh stations that open, confirm and close a peering (14.3, 14.4) with frames written and parsed by the crate do exactly what the protocol says: whatever frames are lost, repeated or reordered, a station that takes the peering to be established has the other's link ID and the other has its own; as long as neither has closed it, the peering can still be established; a delivered close frame ends it on both sides; and nothing that is received makes a station panic.", "quantifier": "for all link IDs, headers, capabilities, association IDs, PMKs, other elements around the mesh peering management element, sequences of opens, closes and deliveries of any length, and buffers that are large enough", "why_tests_cant": "The tests parse single elements. Agreement is about all sequences of losses, repetitions and reorderings, and goes through constructors, element chain, body, frame matching, element lookup and the three parsers that depend on the kind of frame.", "anchors": ["/repo/src/elements/mesh/mesh_peering_management.rs: new_open, new_confirm, new_close, parse_as_open, parse_as_confirm, parse_as_close, TryFromCtx for MeshPeeringManagement", "/repo/src/frames/mgmt_frame/body/action/self_protected.rs: MeshPeeringOpenBody, MeshPeeringConfirmBody, MeshPeeringCloseBody", "/repo/src/elements/mod.rs: get_first_element", "/repo/src/frames/mod.rs: match_frames"]}
{"id": "C92", "title": "The rates of a network are understood", "statement": "Whatever rates an access point puts into the two rates elements of its beacon with the crate, a station that reads both with the crate hears exactly these; every octet is understood as 9.4.2.3 says (rate, membership in the basic rate set, or a required feature), so that a station that looks at rate and flag joins exactly the networks whose requirements it meets; and the flag means what its documentation says.", "quantifier": "for all lists of up to 259 rates, all other elements around, headers, and sets of rates and features of a station", "why_tests_cant": "The tests read one element with eight rates. The meaning of an octet has special numbers at the end of its range that no test uses, and splitting over two elements depends on the list's length.", "anchors": ["/repo/src/elements/rates/mod.rs: EncodedRate, rate_in_kbps, from_rate_in_kbps", "/repo/src/elements/rates/supported_rates.rs: SupportedRatesElement", "/repo/src/elements/rates/extended_supported_rates.rs: ExtendedSupportedRatesElement", "/repo/src/elements/mod.rs: get_first_element", "/repo/src/frames/mgmt_frame/body/beacon.rs: BeaconLikeBody"]}
{"id": "C93", "title": "Fragments of a message are put together again", "statement": "When stations send their messages in up to sixteen pieces each with the crate's data frames, repeat some of the pieces with the retry flag and get in between each other in any way, then a receiver that reads the frames with the crate, drops repeated pieces by 10.3.2.14 and joins the others by 10.5 of the standard gets every message once, whole and in order; whatever bytes it receives, it never panics, and what it takes for a message consists of pieces heard from one source with one number, none missing; and frames made by the data frame builder can take part.", "quantifier": "for all sources (address and traffic stream), messages and numbers of pieces, patterns of repetition, ways of mixing, headers, buffers, and all received bytes", "why_tests_cant": "No test of the project sets a fragment or sequence number or the retry flag. The property is about whole histories of frames from several sources, and the numbers share one field.", "anchors": ["/repo/src/common/mod.rs: SequenceControl", "/repo/src/common/mod.rs: FCFFlags", "/repo/src/frames/data_frame/header.rs: DataFrameHeader", "/repo/src/frames/data_frame/mod.rs: DataFrame", "/repo/src/frames/data_frame/builder.rs: DataFrameBuilder, retry, more_fragments, build", "/repo/src/frames/mod.rs: match_frames"]}
{"id": "C94", "title": "Messages pass unchanged through the distribution system", "statement": "Messages that are put into data frames by the crate (with the builder, by replacing the addresses in a header, or together in an A-MSDU), taken out of the received frames by the crate and passed on in the same way, arrive after any number of steps up to, across between and down from access points with the same destination, source and content, none lost or doubled, in order; each frame is addressed to the receiver of its step. Whatever bytes are received, the messages taken from them are those that table 9-30 and the subframes of an A-MSDU say, and taking them never panics.", "quantifier": "for all lists of messages, all ways of any length and all kinds of steps, all headers that agree with their flags and subtype, with and without check sequence, all buffers with enough room, and all received bytes", "why_tests_cant": "The tests build and read single frames, and none reads the addresses of a frame in order to build another one. The property quantifies over ways of any length.", "anchors": ["/repo/src/frames/data_frame/builder.rs: DataFrameBuilder", "/repo/src/frames/data_frame/header.rs: DataFrameHeader, destination_address, source_address, destination_address_mut, source_address_mut", "/repo/src/frames/data_frame/amsdu.rs: AMSDUSubframe, AMSDUSubframeIterator, AMSDUPayload", "/repo/src/frames/data_frame/mod.rs: DataFrame, potentially_wrapped_payload", "/repo/src/frames/mod.rs: match_frames"]}
{"id": "C95", "title": "Scanning finds the networks", "statement": "A station that asks for a name with a probe request of the crate is answered by an access point that reads the request with the crate exactly if the name is the access point's or the wildcard. A station that listens to beacons and probe responses finds exactly the networks on the air, with their names and in order, whatever other frames there are. Whatever bytes are received, a name is taken only from beacons and probe responses, from the SSID element, and nothing panics.", "quantifier": "for all names, headers, fields and surrounding elements, all lists of networks and other frames, with and without check sequence, all buffers with enough room, and all received bytes", "why_tests_cant": "The tests read one beacon with a printable name; none has a wildcard, a name in another encoding or a list of frames. The property quantifies over all of them.", "anchors": ["/repo/src/elements/ssid.rs: SSIDLikeElement, take_ssid", "/repo/src/frames/mgmt_frame/body/probe.rs: ProbeRequestBody, ProbeResponseBody", "/repo/src/frames/mgmt_frame/body/beacon.rs: BeaconLikeBody", "/repo/src/elements/mod.rs: ReadElements, get_first_element", "/repo/src/frames/mod.rs: match_frames"]}
{"id": "C96", "title": "Messages are protected by Michael", "statement": "A message with the code that the crate computes over destination, source, priority and data, sent in one data frame or in repeated and mixed pieces, is received, with code found right, exactly as it was sent. Whatever bytes are received, a message is taken only if the code of the standard over the frame's own addresses and priority follows it; a wrong code, another key, and any change within one word of addresses, priority and data are always refused. The receiver never panics.", "quantifier": "for all keys, addresses, priorities, messages, ways of dividing, repeating and mixing, all changes of one word, and all received bytes", "why_tests_cant": "The tests compare the code of a few messages with test vectors. That every change of a word is noticed under every key is a statement about 2^64 keys and all messages.", "anchors": ["/repo/src/crypto/michael.rs: michael, michael_block_function", "/repo/src/frames/data_frame/header.rs: DataFrameHeader, destination_address, source_address", "/repo/src/frames/data_frame/mod.rs: DataFrame", "/repo/src/frames/mod.rs: match_frames"]}
{"id": "C97", "title": "Stations join and leave a network", "statement": "An access point and stations that write authentication, association request, association response, disassociation and deauthentication frames with the library, and read what arrives with match_frames!, follow 11.3: whatever happens (stations joining, asking without being authenticated, trying another authentication method, leaving, being dropped or expelled), afterwards every station knows whether it is a stranger, authenticated or a member and with which association ID, as the access point has it in its table; members have IDs from 1 to 2007 and no two have the same; and everything goes as if the letters were handed over instead of frames. A station that joins becomes a member unless all 2007 IDs are held by others. A letter is taken only from a frame that carries it, and no frame makes the receiver panic unless a check sequence is expected in fewer than four bytes.", "quantifier": "all headers with consistent HT control, BSSIDs, element lists, buffers that are long enough, sound starting worlds and sequences of events of any length; for the reading side all byte strings", "why_tests_cant": "The state space is every sequence of events over all addresses with up to 2007 association IDs, and the property is an invariant over all of them; a test exercises one sequence.", "anchors": ["/repo/src/frames/mgmt_frame/body/auth.rs: AuthenticationBody", "/repo/src/frames/mgmt_frame/body/assoc.rs: AssociationRequestBody, AssociationResponseBody", "/repo/src/frames/mgmt_frame/body/disassoc.rs: DisassociationBody", "/repo/src/frames/mgmt_frame/body/deauth.rs: DeauthenticationBody", "/repo/src/common/aid.rs: AssociationID, new_checked", "/repo/src/frames/mod.rs: match_frames"]}
{"id": "C98", "title": "Messages are delivered once although frames are lost", "statement": "A station sends the pieces of its messages in data frames of the crate, each until it hears an acknowledgement, with the retry flag on every attempt but the first; the receiver reads frames with match_frames!, joins pieces, and answers each data frame addressed to it with an Ack of the crate. However many frames and acknowledgements are lost or damaged, and whatever else both hear, the receiver has an initial part of the messages, each once, whole and in order; as many pieces are acknowledged as there were attempts where nothing was lost; and a message whose pieces are acknowledged has been delivered. An acknowledgement is recognised exactly by the station it is for.", "quantifier": "for all messages and ways of dividing them, all headers for data, all finite patterns of losses, all other frames heard by either side, all buffers that are long enough, both scroll rules", "why_tests_cant": "A test runs one pattern of losses. Exactly-once delivery is an invariant over all interleavings of losses, repetitions and foreign frames.", "anchors": ["/repo/src/frames/control_frame/mod.rs: ControlFrame, get_fcf, receiver_address", "/repo/src/frames/data_frame/mod.rs: DataFrame", "/repo/src/frames/data_frame/header.rs: DataFrameHeader", "/repo/src/frames/mod.rs: GenericFrame, match_frames, frame_control_field", "/repo/src/common/mod.rs: SequenceControl"]}
{"id": "C99", "title": "Open networks lead to their encrypted twins", "statement": "In OWE transition mode an open and an encrypted network name each other by a transition element. A station that reads beacons and probe responses with the crate learns of each network exactly what it says: address, name, key management suites and twin. From an open network it is led to exactly the network that is its encrypted twin, under the name given for it, whatever other networks and frames are on the air. Whatever bytes are received, nothing is learned that no element says, and nothing panics. The crate's own constant for such networks can be used.", "quantifier": "for all lists of networks with all names, RSN elements, transition elements and other elements, all other frames, with and without check sequence, all buffers with enough room, and all received bytes", "why_tests_cant": "A test sends one pair of beacons. Whether each pair is found among any other networks, and only then, concerns all combinations of elements and frames.", "anchors": ["/repo/src/elements/owe_transition.rs: OWETransitionModeElement, BandAndChannelInfo", "/repo/src/elements/rsn.rs: RsnElement, OWE, akm_list", "/repo/src/elements/element_chain.rs: ChainElement, ElementChainLink", "/repo/src/frames/mgmt_frame/body/beacon.rs: BeaconLikeBody", "/repo/src/frames/mod.rs: match_frames"]}
{"id": "C100", "title": "Sleeping stations get the messages kept for them", "statement": "An access point keeps messages for stations that sleep, and announces in its beacons, by the TIM of the crate, who has some. A station that is awake and finds its number asks with a PS-Poll, made with the control frames of the crate; the access point reads it with GenericFrame and answers with a data frame that says by more_data whether there are more; the station reads it with match_frames! and asks again while there are. Every station that is awake gets its own messages, one for each question, in the order in which they came, each once, and no other station gets them; what is not fetched is kept. A PS-Poll is recognised exactly as the standard has it.", "quantifier": "for all sequences of beacon intervals, all messages, all stations awake and numbers of questions, all headers and other elements of the beacons, all ways of making the bitmap that announce exactly who has messages, with and without check sequence, all buffers that are large enough, and all received bytes", "why_tests_cant": "A test has one beacon and one station. Whether everybody is told and served under every set of waiting stations, for as long as the network runs, concerns all bitmaps and all sequences.", "anchors": ["/repo/src/elements/tim.rs: TIMElement, TIMBitmapControl, n1, aid_iter", "/repo/src/common/aid.rs: AssociationID, new_checked, into_bits", "/repo/src/common/mod.rs: FCFFlags, more_data", "/repo/src/common/subtypes/control.rs: ControlFrameSubtype, has_address_2", "/repo/src/frames/control_frame/mod.rs: ControlFrame, get_fcf, transmitter_address", "/repo/src/frames/mod.rs: GenericFrame, duration, address_1, address_2, match_frames", "/repo/src/frames/data_frame/mod.rs: DataFrame"]}
{"id": "C101", "title": "The channel of a network is understood", "statement": "A station that looks up the DSSS parameter set, HT operation and VHT operation elements of a beacon or probe response with the crate and combines their fields as the standard says (primary channel, side of the secondary channel, 20, 40, 80, 160 or 80+80 MHz, channel centres) has exactly the channel that the octets of the elements mean by 9.4.2.4, 9.4.2.57, 9.4.2.158 and Table 11-23; every channel can be expressed and is heard as it is meant, and an access point that makes the elements with the crate is heard on the channel it means.", "quantifier": "for all element bytes, all channel plans, all other bits and octets of the three elements, all other elements, headers and names, with and without check sequence, all buffers that are large enough, and all received bytes", "why_tests_cant": "The tests of the crate read one HT operation element with no information bits set. The meaning depends on three elements at once, of which each may be absent, repeated or malformed, and on all values of widths and channel centres.", "anchors": ["/repo/src/elements/ht/operation.rs: HTOperationElement, HTOperationInformation, SecondaryChannelOffset", "/repo/src/elements/vht.rs: VHTOperationElement, ChannelWidth", "/repo/src/elements/dsss_parameter_set.rs: DSSSParameterSetElement", "/repo/src/elements/mod.rs: get_first_element", "/repo/src/frames/mgmt_frame/body/beacon.rs: BeaconLikeBody"]}
{"id": "C102", "title": "Sleeping stations wake for the right beacons", "statement": "A station that has heard any beacon of an access point, made and read with the crate, computes from the timestamp, the beacon interval, and the DTIM count and period of the TIM the time of the next beacon after which group traffic is sent: the first later beacon whose number is a multiple of the period. Sleeping until then, again and again, it is awake exactly for all of these beacons and for no others, and knows for each whether there is group traffic. Whatever is received, the times are those that the octets of a beacon say.", "quantifier": "for all beacon intervals and DTIM periods, all beacons and numbers of wake-ups (before the 64-bit time ends), all bitmaps, other elements and headers, with and without check sequence, all buffers that are large enough, and all received bytes", "why_tests_cant": "It is about an unbounded run of an access point and a station, with 65535 intervals, 255 periods and every starting point; the tests of the crate read and write single TIM elements.", "anchors": ["/repo/src/frames/mgmt_frame/body/beacon.rs: BeaconLikeBody, timestamp_as_duration, beacon_interval_as_duration", "/repo/src/elements/tim.rs: TIMElement, check_dtim_parameters, dtim_count, dtim_period, traffic_indicator", "/repo/src/elements/mod.rs: get_first_element"]}
{"id": "C103", "title": "A reserved medium is left alone", "statement": "Two stations exchange RTS, CTS, a data frame and its acknowledgement, written and read with the crate, each frame saying how much longer the exchange takes. The exchange takes place; a third station that hears any of the four frames, and follows duration and first address as the crate reads them, keeps silent until the exchange is over (or longer, if it had to anyway), and the two stations are not blocked by each other. PS-Polls, which have an association ID in the place of the duration, reserve nothing. Whatever is received, the rule of the standard on the octets is followed.", "quantifier": "for all data headers and payloads that fit their subtype, all addresses, all start times and durations (below 32768 microseconds together), every non-empty selection of the four frames, with and without check sequence, all buffers that are large enough, and all received bytes", "why_tests_cant": "It is about four frames of three stations together, with every duration, address and selection of frames heard; the tests of the crate read and write single frames.", "anchors": ["/repo/src/frames/mod.rs: GenericFrame, duration, address_1", "/repo/src/frames/control_frame/mod.rs: ControlFrame, get_fcf", "/repo/src/frames/data_frame/header.rs: DataFrameHeader", "/repo/src/common/aid.rs: AssociationID"]}
{"id": "C104", "title": "Stations of an ad-hoc network agree on the time", "statement": "Stations of a network without access point send beacons with their time, written with the crate, and take over the time of any beacon or probe response of their network (flag, address and name as the crate reads them) that is later than their own. Whatever happens, and whoever hears what, the clock of a station in the end is the one that was furthest ahead of those whose word has come to it, directly or by others; so no clock is set back and all agree whom the word of the fastest has reached. Other networks and other frames change nothing, and any received bytes set a clock only as their octets say.", "quantifier": "for all sequences of beacons, foreign announcements and other frames, all sets of hearers, all numbers of stations and initial clocks (within 64 bits), all names up to 32 bytes, other elements and headers, with and without check sequence, all buffers that are large enough, and all received bytes", "why_tests_cant": "It is about unbounded runs of any number of stations and about every way in which news can spread; the tests of the crate read and write single beacons.", "anchors": ["/repo/src/frames/mgmt_frame/body/beacon.rs: BeaconLikeBody, timestamp_as_duration", "/repo/src/common/capabilities.rs: CapabilitiesInformation", "/repo/src/frames/mgmt_frame/header.rs: ManagementFrameHeader", "/repo/src/elements/mod.rs: get_first_element"]}
{"id": "C105", "title": "Nothing is sent to a station that sleeps", "statement": "Stations say in data frames, written with the crate, whether they are going to sleep, and sleep only after an acknowledgement; the access point, reading them with the crate, keeps messages for those that said so and sends them when it hears otherwise. Although any frames of the stations and acknowledgements are lost, the access point believes of each station what was last heard from it, no station sleeps of which it does not believe so, what a station has got and what is kept for it are together all its messages in order, and stations believed awake have got everything. Other frames change nothing, and any received bytes change the belief only as their octets say.", "quantifier": "for all sequences of data frames (any header and payload that fit the subtype), messages, losses and other frames, any number of stations, with and without check sequence, all buffers that are large enough, and all received bytes", "why_tests_cant": "It is an invariant of unbounded runs of any number of stations with every pattern of losses; the tests of the crate read and write single data frames.", "anchors": ["/repo/src/common/mod.rs: FCFFlags", "/repo/src/frames/data_frame/header.rs: DataFrameHeader", "/repo/src/frames/data_frame/mod.rs: DataFrame", "/repo/src/frames/control_frame/mod.rs: ControlFrame, get_fcf"]}
{"id": "C106", "title": "Mesh stations find their mesh", "statement": "A mesh station that compares, with the fields of the crate, the mesh ID and the five identifiers of received beacons and probe responses with its own, takes exactly those neighbours for possible peers that have its mesh profile and accept more peerings, as the octets say; and of all it hears it chooses the best, with a mesh gate before others and then with the fewest peerings. Two stations that announce themselves with the crate find each other exactly if their profiles are equal. (The code violates this for mesh IDs that are not UTF-8, which are not found or taken for others, and for identifiers held as `Unknown`.)", "quantifier": "for all mesh IDs and configurations, all element areas, all lists of stations and other frames, with and without check sequence, all buffers that are large enough, and all received bytes", "why_tests_cant": "It compares every pair of configurations and every order of neighbours; the tests of the crate parse single mesh elements.", "anchors": ["/repo/src/elements/mesh/mesh_configuration.rs: MeshConfigurationElement, MeshFormationInfo, MeshCapability", "/repo/src/elements/ssid.rs: SSIDLikeElement, MeshIDElement", "/repo/src/elements/mod.rs: ReadElements", "/repo/src/frames/mgmt_frame/body/beacon.rs: BeaconLikeBody"]}
{"id": "C107", "title": "A key that both sides remember is used again", "statement": "PMKSA caching: an access point that reads the key identifiers in the RSN element of an association request with the crate, and computes those of its own keys with the crate, uses the first of its keys that the station lists, and none if none is listed; a key it uses is one it remembers, with the identifier (first 16 octets of HMAC of \"PMK Name\", access point and station address) in an RSN element of the request. (The code violates this: of a list as in the standard only the first quarter is seen, so that stations with one to three keys never have one used again; and with the typed element of the crate no key is seen at all. It holds if a station puts the element as the crate writes it into a raw element.)", "quantifier": "for all keyed hashes with at least 16 octets of output, all keys and addresses, all lists of identifiers, all RSN elements, all other elements around it, with and without check sequence, all buffers that are large enough, and all received bytes", "why_tests_cant": "No test of the crate has a list of key identifiers; the results hold for every list and every position of a key in it.", "anchors": ["/repo/src/elements/rsn.rs: RsnElement, IEEE80211Pmkid, read_list", "/repo/src/crypto/key_mgmt.rs: generate_pmkid", "/repo/src/frames/mgmt_frame/body/assoc.rs: AssociationRequestBody"]}
{"id": "C108", "title": "Both sides agree on the security of a link", "statement": "An access point announces pairwise cipher suites, key management suites and protection of management frames in the RSN element of its beacons; a station that reads the beacon with the crate chooses the first of its own suites that the access point takes, with protection as in Table 12-5 of the standard, and no link if there is none; the access point reads the same link in the association request and accepts it. Nothing is chosen or accepted that is not in an RSN element on the air. (The code violates this where protection is required: what it writes for 'required' it reads as 'invalid', so such networks are joined by no station, among them the preset WPA2_WPA3_PERSONAL; and the octets of the standard for 'capable' are read as 'required'.)", "quantifier": "for all lists of suites of both sides, all settings of protection, all other elements around the RSN element, all fixed fields, with and without check sequence, all buffers that are large enough, and all received bytes", "why_tests_cant": "The tests of the crate read and write single elements; that both sides come to the same link depends on every pair of lists and on beacon, request and the element between them.", "anchors": ["/repo/src/elements/rsn.rs: RsnElement, RsnCapabilities, OptionalFeatureConfig, WPA2_WPA3_PERSONAL", "/repo/src/frames/mgmt_frame/body/beacon.rs: BeaconLikeBody", "/repo/src/frames/mgmt_frame/body/assoc.rs: AssociationRequestBody"]}
{"id": "C109", "title": "A station goes where there is room", "statement": "A station that keeps the latest word of each access point about its load (BSS load element in beacons and probe responses, read with the crate) goes to an access point with enough admission capacity than which no other with enough capacity has a less busy channel, or an equally busy one with fewer stations; and it goes nowhere exactly if none has enough. Words are taken only from beacons and probe responses, and only as their elements say octet by octet.", "quantifier": "for all sequences of beacons, probe responses and other frames of any number of access points, all loads and all other elements around them, all capacities needed, with and without check sequence, all buffers that are large enough, and all received bytes", "why_tests_cant": "The test of the crate reads one BSS load element; here the choice depends on the order of any number of frames and on all values of the three fields.", "anchors": ["/repo/src/elements/bss_load.rs: BSSLoadElement", "/repo/src/frames/mgmt_frame/body/beacon.rs: BeaconLikeBody", "/repo/src/elements/mod.rs: ReadElements::get_first_element"]}
{"id": "C110", "title": "Nobody sends with more streams than the other side receives", "statement": "A sender that reads the VHT capabilities of a station with the crate uses the greatest number of spatial streams with which it can send and the station receives, and the lower of the two highest MCS for it; so it never uses streams or an MCS that the station does not receive. (The code violates this where stations build their map with from_vht_mcs_iter: every map built so claims MCS 0 to 7 for five to eight streams, so that stations with one to four streams are sent to with five or more.)", "quantifier": "for all maps of both sides, all elements and their order, all beacons and probe responses of the crate, with and without check sequence, all lists of levels from which maps are built, all buffers that are large enough, and all received bytes", "why_tests_cant": "The crate has no test of VHT maps against what is sent; 65536 maps of each side and every position of the element matter, and what is wrong shows only with a sender that has more streams than the receiver.", "anchors": ["/repo/src/elements/vht.rs: VHTMCSMap, vht_mcs_support_for_nss, from_vht_mcs_iter, SupportedVHTMCSAndNSSSet, VHTCapabilitiesElement", "/repo/src/elements/mod.rs: ReadElements::get_first_element"]}
{"id": "C111", "title": "Nobody sends longer frames than the other side receives", "statement": "A sender that reads with the crate how long the frames are that a VHT station receives, and packs its messages into A-MSDUs of the crate in their order, sends no frame that is longer; every message that fits into a frame alone arrives once and in its order, each frame is full, and no other division needs fewer frames. (The code violates this for senders that rely on the crate's measure of a frame: it leaves out the padding of the subframes, and frames that it measures as within the limit are longer.)", "quantifier": "for all elements and their order, all beacons and probe responses of the crate, all headers for A-MSDUs that agree with their flags and subtype, all limits, all lists of messages that fit the length field, all other divisions into frames, with and without check sequence, all buffers that are large enough, and all received bytes", "why_tests_cant": "The crate's test of A-MSDUs has two subframes and does not look at the length of a frame against a limit; whether a limit is kept depends on the lengths of all messages together, and padding of one to three octets is seen only where a frame is almost full.", "anchors": ["/repo/src/elements/vht.rs: VHTCapabilitiesInfo, maximum_mpdu_length_in_bytes, VHTCapabilitiesElement", "/repo/src/frames/data_frame/amsdu.rs: AMSDUSubframe, AMSDUPayload, AMSDUSubframeIterator", "/repo/src/frames/data_frame/mod.rs: DataFrame", "/repo/src/elements/mod.rs: ReadElements::get_first_element"]}
{"id": "C112", "title": "A transmission is one that its receiver understands", "statement": "A sender that reads the HT capabilities of a station with the crate and describes its transmission in an HT-SIG of the crate uses the first MCS of its preference that the station receives, 40 MHz, LDPC codes and the short guard interval of the width exactly where both have them, and MCS 32 with 40 MHz only; so the HT-SIG is always that of a transmission which the station understands. (The code violates this where stations build their set of MCS from flags with generate_supported_rx_mcs_set: MCS 76 is lost, and such stations are never sent to with it.)", "quantifier": "for all preferences, widths, guard intervals, codes and lengths, all elements and their order, all beacons and probe responses of the crate, with and without check sequence, all lists of flags from which sets are built, all buffers that are large enough, and all received bytes", "why_tests_cant": "There are 77 MCS, 2^77 sets of them and 2^16 capability words; a test sees a few of these, and never together with the bits of the HT-SIG that is sent for them.", "anchors": ["/repo/src/elements/ht/capabilities.rs: HTCapabilitiesInfo, HTCapabilitiesElement", "/repo/src/elements/ht/mcs_set.rs: SupportedMCSSet, supported_rx_mcs_indices, generate_supported_rx_mcs_set", "/repo/src/common/sig.rs: HtSig", "/repo/src/elements/mod.rs: ReadElements::get_first_element"]}
{"id": "C113", "title": "Old stations are protected", "statement": "A sender that reads the HT operation element of a beacon or probe response with the crate protects an HT transmission exactly where the standard demands it: always under nonmember and non-HT mixed protection, 40 MHz transmissions under 20 MHz protection, and greenfield transmissions where a station without greenfield is present; without the element there is no answer. (The code violates this where access points make the element with the crate: HTOperationElement writes the wrong five octets of the information word, so whatever protection is set, the element demands none; only elements that demand none keep their meaning.)", "quantifier": "for all widths and formats of transmissions, all elements and their order, all HT operation elements, all beacons and probe responses of the crate, with and without check sequence, all buffers that are large enough, and all received bytes", "why_tests_cant": "The word has 2^33 meaningful values and may stand in any place among any other elements; a test that writes and reads back a default element sees zeros on both sides, and so misses that every demand is lost.", "anchors": ["/repo/src/elements/ht/operation.rs: HTProtectionMode, HTOperationInformation, HTOperationElement", "/repo/src/elements/mod.rs: ReadElements::get_first_element"]}
{"id": "C114", "title": "Stations of an ad-hoc network are awake together", "statement": "A station that reads a beacon or probe response of an ad-hoc network with the crate is awake exactly in the ATIM window after each beacon time, by the interval and the IBSS parameter set element that it hears; so stations that hear the same interval and window are awake at the same times, and without an ad-hoc network, an interval or the element there is no answer. With elements made from durations it is the whole time units of the duration. (The code violates this for durations of 65536 time units and more, which wrap around: with 65536 everybody should always be awake, and nobody ever is.)", "quantifier": "for all times, intervals, windows and durations, all elements and their order, all beacons and probe responses of the crate, with and without check sequence, all buffers that are large enough, and all received bytes", "why_tests_cant": "Times, intervals, windows and durations are numbers without bound or of 16 to 64 bits, and the windows must agree at every time; a test tries a few.", "anchors": ["/repo/src/elements/ibss_parameter_set.rs: IBSSParameterSetElement, atim_window_in_tu, new", "/repo/src/frames/mgmt_frame/body/beacon.rs: beacon_interval_as_duration", "/repo/src/elements/mod.rs: ReadElements::get_first_element"]}
{"id": "C115", "title": "Nobody speaks too early", "statement": "A station that reads the capabilities of a network from a beacon or probe response with the crate waits exactly the time of the standard before it sends: the short space, two slots and the slots it has drawn, with slots of 9 microseconds exactly if the network uses short slots, and preambles of 96 microseconds exactly if it allows them; so of two stations of a network the one that has drawn less is earlier by at least a slot.", "quantifier": "for all numbers of drawn slots, all capabilities, all elements and their order, all beacons and probe responses of the crate, with and without check sequence, all buffers that are large enough, and all received bytes", "why_tests_cant": "There are 2^16 capability words with any number of drawn slots, and frames of any form; tests try a few words and never a frame together with the time that follows from it.", "anchors": ["/repo/src/common/capabilities.rs: CapabilitiesInformation", "/repo/src/frames/mgmt_frame/body/beacon.rs: BeaconLikeBody"]}
{"id": "C116", "title": "Messages of vendors arrive among those of others", "statement": "A message of any length that a vendor cuts into vendor specific elements of the crate with its identifier, in a beacon or probe response among any other elements, is put together again by a receiver that uses the crate, unchanged and with no more elements than necessary; vendors whose identifiers do not begin with each other see nothing of each other's messages, and whatever is received, a message is exactly what the elements with the identifier say.", "quantifier": "for all identifiers and messages of any length, all other elements and their order, all beacons and probe responses of the crate, with and without check sequence, all buffers that are large enough, and all received bytes", "why_tests_cant": "Messages have any length and may be cut at any place, with any elements of any vendors between the pieces; a test sees a few short ones.", "anchors": ["/repo/src/elements/vendor_specific_element.rs: VendorSpecificElement, PrefixedVendorPayload, get_payload_if_prefix_matches, new_prefixed", "/repo/src/elements/mod.rs: ReadElements::get_matching_elements"]}
{"id": "C117", "title": "Each kind of network is taken for what it is", "statement": "A station that reads the capabilities of a network from a beacon or probe response with the crate takes it for a network with an access point, an ad-hoc network or a mesh exactly as the ESS and IBSS bits say, and for none of them if both are set; it joins only a network of the kind it looks for, with its key exactly if the network demands encryption, in the clear exactly if it does not, and stays away without a key from one that does.", "quantifier": "for all kinds looked for, with and without key, all capabilities, all elements and their order, all beacons and probe responses of the crate, with and without check sequence, all buffers that are large enough, and all received bytes", "why_tests_cant": "There are 2^16 capability words and frames of any form with any elements; tests try a few words and never follow a frame to the decision that is taken by it, and a false decision to send in the clear is seen only for words that were tried.", "anchors": ["/repo/src/common/capabilities.rs: CapabilitiesInformation", "/repo/src/frames/mgmt_frame/body/beacon.rs: BeaconLikeBody"]}
{"id": "C118", "title": "No network is taken for less protected than it is", "statement": "A station that looks for the RSN element of a beacon or probe response with the crate takes the network for robust exactly if there is an RSN element of version 1, however that element goes on and whatever stands before or after it, and otherwise for one with the old encryption exactly if the privacy bit is set; so no added element makes a network look less protected.", "quantifier": "for all capabilities, all RSN elements including cut and malformed ones, all other elements and their order, all beacons and probe responses of the crate, with and without check sequence, all buffers that are large enough, and all received bytes", "why_tests_cant": "An element may be cut at any of 256 places with any counts in it, and stand anywhere among any others; tests read a few whole elements, and an element that is overlooked shows only as a weaker encryption somewhere else.", "anchors": ["/repo/src/elements/rsn.rs: RsnElement", "/repo/src/common/capabilities.rs: CapabilitiesInformation", "/repo/src/frames/mgmt_frame/body/beacon.rs: BeaconLikeBody"]}
