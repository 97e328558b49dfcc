# Verification of redsea: design

The subject is the RDS decoder in `/repo` (C++). This directory contains a Lean 4
model of the parts of the code that decide what a user sees, and machine-checked
proofs about that model. The C++ code was read, never run.

## Layout

* `properties.jsonl` – the properties in words.
* `lean/Verif/Model/*.lean` – the model, function by function. Every definition cites
  file and lines in `/repo`. Simplifications are stated in the comment of the
  definition.
* `lean/Verif/Spec/*.lean` – small specifications that do not use the model
  (standard RDS encoder, base64 decoder, bitwise CRC, calendar, ...).
* `lean/Verif/Lemmas/*.lean` – helper lemmas.
* `lean/Verif/Props/*.lean` – the property theorems, next to `example`s which show a
  concrete non-trivial instance of their hypotheses.
* `MANIFEST.json` – property → theorems.
* `seeded/LOG.jsonl` – mutation tests of the model.

## Conventions

* 16-bit words are `BitVec 16`, the 26-bit shift register and bit counters are
  `BitVec 32` (as in the code, so wraparound is faithful). Bytes are `BitVec 8`.
  Decoded fields whose arithmetic can not overflow are `Nat`.
* C++ undefined behaviour / exceptions that a property talks about are explicit
  outcomes of the model (`Option`/`Except`/a flag), never hidden by a default value.
* Stateful classes are a structure, an initial value and step functions. Statements
  about "any history" are by induction over lists of operations.
* Where the code violates a property, the negation is proved with a concrete
  witness (`..._violated`), and the strongest true part is proved as `..._partial`.

## Per-property plan

| id | modelled | how proved |
|----|----------|-----------|
| C01 | `calculateSyndrome`, `getOffsetForSyndrome` | syndrome is XOR-linear (general fold lemma); spec encoder (polynomial division) is linear; equality on the 16 basis words by `decide`; lifted to all words |
| C02 | `makeErrorLookupTable`, `correctBurstErrors` | linearity + the 51 burst syndromes are distinct for each offset (whole finite table) |
| C03 | same | the table contains only bursts (structural); syndrome 0 ⇔ codeword by linearity |
| C04 | whole `BlockStream` | invariant over all bit lists: the register holds the last 26 bits; every stored block was checked when stored |
| C05 | whole `BlockStream` | symbolic execution of 26 bits per block, induction over groups |
| C06 | same + correction | same with C02 |
| C07 | `SyncPulseBuffer`, `acquireSync` | invariant: buffer entries are real past pulses; distances are modulo 2^32 (the bit counter wraps) |
| C08 | same | case analysis over the four-entry buffer ("unless already locked") |
| C09 | `RunningSum` | ring buffer refines "last 50 of the history" |
| C10 | `pushBit` etc. | block-phase invariant |
| C11 | `couldFollow` | BitVec arithmetic |
| C12–C14 | `Group::setBlock` | case analysis; C14: negation with witness |
| C15–C17 | `CachedPI` | invariants over update histories; C17: negation for PI 0 |
| C18,C19,C23 | `Channel`, `Station::updateAndPrint` | step analysis, induction over groups |
| C20 | clock handling of `Channel` | induction over calls: any clock for bit buffers, steady clock for all calls; negations otherwise |
| C21 | `RunningAverage` | exact dyadic arithmetic, ring buffer refinement |
| C22 | `Channel::flush` | negation for stream 0, partial for the others |
| C24–C27 | `RDSString` | strong invariant relating buffer and history |
| C28 | `charlen`, substring | counter-example + ASCII-boundary partial |
| C29 | `decodeType2` | C24 with clears at A/B changes |
| C30–C33 | `AltFreqList`, `CarrierFrequency` | invariant + refinement to list semantics |
| C34 | `asBase64` | round trip with a spec decoder, induction over 3-byte chunks |
| C35,C36 | `RFTFile` | history invariant, bounds |
| C37 | `crc16_ccitt` | per-byte equivalence by linearity/finite check, list induction |
| C38,C39 | `printHex`, `readHexGroup` | parser/printer round trip; negation witnesses |
| C40 | `readTEFGroup` | decision logic over all bytes; negation |
| C41 | `readBit` loop | induction over input; negation for EOF bit |
| C42 | `fillBuffer`/`readChunk` | induction over chunks; negation for last chunk |
| C43 | `getCallsignFromPI` | arithmetic over all letters |
| C44 | table indices | bounds lemmas; totality of the decoders (C60) |
| C45 | `decodeType4A` | exact rational evaluation of the floating point formulas vs. civil calendar |
| C46 | `decodePIN` | bit-field lemmas |
| C47 | all of `Station` | the routing table after any history is the latest assignment; each decoder for an application prints only members of its own |
| C48 | 14A decoding, per-network state | the state of each network is a fold over the groups about that network only; printed name and list are read from it (`J.at?`) |
| C49 | all decoders | every decoder is invariant under changes of blocks that were not received; four exceptions with witnesses |
| C50 | `decrypt` | BitVec |
| C51 | `getFreeformFields` | pack/parse round trip; negation for 3/4 groups |
| C52,C53 | `TMCService`, `Message` | history invariants |
| C54 | `decodeLocation` | fuel-free structural bound |
| C55 | `getTimeString` | whole table |
| C56 | `CSVRow`, `readCSVWithTitles` | refinement to split; negation for a stray carriage return |
| C57 | `getOptions`, `main` (start) | induction over the list of results of `getopt_long`; floating point library is a parameter; negations for NaN and unknown options |
| C58,C59 | `DeltaDecoder`, `BiphaseDecoder` | induction; floating point operations are parameters |
| C61 | the same, joined | exact arithmetic; energy of each window computed for an ideal signal |
| C62 | all decoders of single groups | transmitter-side layout (`Spec/Broadcast`); value at each path of the printed object (`J.at?`); negations for 1A variant 6 and 14A variant 9 |
| C63 | `Station` texts over whole histories (`Lemmas/StationSlots`, `Lemmas/StationTexts`, `Lemmas/StationRadiotext`) | events of each text defined from the groups (`Spec/Texts`); the text buffer is the result of these events; with C24 and C25; partial for RadioText (2A/2B change without flag change, see C27) and enhanced RadioText (block 3 unchecked, one encoding, 64 bytes) |
| C64 | `Station::decodeType0` frequencies over whole histories (`Props/StationFrequencies`) | the codes of each group (`afEvents`); the list held by the station is what `afDecode` makes of the history, so that C31 applies; the JSON members by path |
| C65 | `TMCService::receiveUserGroup`, `Message::pushMulti`, `decodeMulti`, `Message::json` (`Props/TmcContent`) | meaning of a list of fields (`Spec/TmcMessage`); invariant over the fields (`Lemmas/TmcFields`); the members of the message; with C51 from the groups. Partial as C51 |
| C66 | `getDescriptionWithQuantifier`, `getQuantifierSize` (`Props/TmcQuantifier`) | the tables as enumerations (`Spec/TmcQuantifier`); every code of every type by evaluation of the numbers; replacement of the mark by induction. Negation for times 0 and 145 |
| C67 | `loadEventData`, `std::stoi`, the built-in tables (`Model/TmcData`, `Model/TmcEvents`, `Props/TmcEvents`, `Props/TmcBuiltin`) | rows as records with their line (`Spec/TmcData`), loading is the inverse; the lines of the built-in tables are shown to be rows by evaluation in the kernel. Negation for 29 events without a place for their quantifier |
| C68 | `loadServiceKeyTable` (`Props/ServiceKeys`) | rows as records with their line (`Spec/TmcData`); loading is the inverse, other lines are skipped; the keys meet the assumption of C60 if shifts are at most 24. Negation for larger shifts |
| C69 | `loadLocationDatabase`, `readLTN` (`Lemmas/Locations`, `Lemmas/LocationPoints`, `Props/Locations`) | a table as lists of records, damaged rows included (`Spec/Locations`); files are any lines that show the records; each row reader gives the record, the loop over points by induction with an invariant for the names. `iconv` and the conversion to degrees are parameters. Negations: name of the road of the segment, one neighbour |
| C70 | everything from bits to lines (`Lemmas/EndToEnd`, `Props/EndToEnd`) | stations as sequences of groups with error patterns (`Spec/OnAir`); joins C06 (groups arrive), C17/C18/C19 (the station is found), C23 (lines are printed), C62, C63 (content) and C71 (no error report). RadioText only while groups with fixed functions are sent, because RadioText Plus clears the text |
| C71 | `Station.updateAndPrint` with all decoders (`Lemmas/Utf8*`, `Props/Utf8`) | invariant that all texts kept by the station are UTF-8, and each decoder prints only UTF-8; `validUtf8` is compared with the encoder of Lean's `String`. Partial: not for long PS (15A), RadioText Plus, enhanced RadioText. Negations: RadioText Plus, long PS |
| C72 | `SubcarrierSet`, `Resampler` use, sample loop (`Model/Subcarrier`, `Lemmas/Subcarrier`, `Props/Subcarrier`) | the objects of liquid-dsp are arbitrary state machines (`Liquid`); `Spec/Demod` tells the signal path of one subcarrier without chunks; refinement by induction over samples and chunks. The resampler is assumed to keep its rate (`KeepsRate`), so that its buffer suffices. Partial: up to 2^32 samples. Negations: the counter after 2^32 samples, sample rates above 34.2 MHz |
| C73 | `processMPXInput` with all channels (`Model/Subcarrier`, `Lemmas/SyncLost`, `Lemmas/MpxLoop`, `Lemmas/MpxChannels`, `Props/MpxLoop`) | each channel has a story (`ChannelStory`): calls of the functions of `Channel` with single bits, so that C60 and C70 apply; induction over chunks, and over channels by projection. Time since the carrier was lost is counted in bits of stream 0, as in the code |
| C74 | the loops for bits and hexadecimal input, from text to lines (`Model/Programs`, `Lemmas/HexPipe`, `Props/HexPipe`) | simulation of three runs: the direct one, the one with hexadecimal output (same groups, `twin_run`), and the one that reads (`pipeInv`: same station up to `last_group_had_pi`, same PI cache). What is lost in hexadecimal lines is excluded by `Pipeable`; each of its four conditions is necessary (four `_violated` theorems with concrete bits). `C74_program_partial` (`Props/PipeProgram`) is about three whole runs of the program, with the text of the standard output of one on the standard input of the next |
| C75 | the TMC receiver inside of `Station` (`Spec/TmcStation`, `Lemmas/TmcStation`, `Props/TmcStation`) | induction over the groups of the station: the receiver has run over exactly the list `history tmcPart` (`C75_service`). `TmcKnown`: invariant over that list for encryption, identifiers, table and country. The members come from the operations of the receiver, since all other operations of the group are elsewhere (`tmc_parts`). Messages of several groups: `C75_message_groups_partial` (listed under C65) |
| C76 | tuning information (`Props/TmcTuning`) | members as in C75; the name by C24 and C25 with `providerText` as history. Frequencies and PI codes: violated, see below |
| C77 | type C groups inside of `Station` (`Spec/TypeC`, `Lemmas/TypeC`, `Props/TypeC`) | induction over the groups of the station: files and assignments have run over exactly the list `history typeCPart` (`C77_files_and_channels`); a transfer is the part of that list since the toggle bit changed, after an announcement of its size (`C77_transfer`). The words of a group are built from the fields by the specification, and read back (`C77_event`) |
| C78 | `headerOps`, `decodeBasics` for type C, unknown applications in `decodeODAGroup` (`Spec/LineHeader`, `Props/LineHeader`) | each member is set by at most one operation (`at_option`), and all other operations are elsewhere; options, PI code and channel of the station do not change (induction, `receive_channel`) |
| C79 | echo of the readers (`Model/FeedThrough`, `Props/FeedThrough`) | strong induction over the length of the input: what one call echoes and what it leaves make up the input (`hexLoopEcho_whole`, `tefLoopEcho_whole`, `bitEcho_whole`); induction over the chunks for sound. The extra byte FF comes from `putchar(EOF)` (src/io/input.cc:168-170). Not modelled: the conversion between bytes and samples by libsndfile in both directions, and that lines go to the standard error |
| C80 | `readTEFGroup`, `processTEFInput` (`Props/TefSession`) | induction over the lines of the session, with the PI code read so far as invariant (`tef_session`) |
| C81 | `getTimePointString`; `strftime` scans the format, what it writes for one conversion is any function (`Model/TimeStamp`, `Props/TimeStamp`) | induction over the parts of the format, for the replacement of `%f` (`replace_parts`) and for `strftime` (`strftimeText_parts`); the digits by arithmetic (`fractionDigits_eq`). Partial: violated by a second `%f`, by `%%f`, by texts that are empty or longer than 63 bytes (the buffer has 64), and by times before 1970 |
| C82 | the table of countries (`Model/Tables`, `Props/Countries`) | the list by countries (`Spec/Countries`, written from knowledge of the standard, which was not at hand) is compared with the table by rows over all of the table (`rows_a` .. `rows_f`), and lifted to all codes. Partial: D1/F is Nigeria, but "bg" is printed |
| C83 | `main` with the loading of tables (`Model/Main`, `Props/Main`); output is a list of items per stream, the texts of usage, version, errors and warnings are not modelled, nor the order between the two streams | C60, C79 and C80 for text input; C41 and C70 for bits (`C83_bits_reception`, `C83_bits_ps`); C73 for sound. Partial: violated by unknown encodings of location tables, by sample rates above 34.2 MHz, and by the JSON line about location tables in hexadecimal output |
| C84 | the TMC receiver with the data of `Machine.env`: the event list, the tables of `loadTables` (`Props/TmcProgram`) | C75 for the members of the message (`ShowsMessage`, `ShowsPlace`); C67 for the event under a code, and a line belongs to one row only (`row_inj`); induction over the directories (`env_locations`); C69 for the table, point by point along the links (`linked_along`). The name of the road is printed correctly although C69 is violated for it, because that of the road itself comes first |
| C85 | the text of JSON (`Model/JsonText`) and of the whole output (`Model/Output`); texts of floating point numbers are arbitrary numbers with a fraction or an exponent | a reader of JSON texts that knows nothing of the writer (`Spec/JsonText`: `readText`, `readLines`, `NoRepeats`); reading undoes writing by induction over the tree with what follows (`readValue_dump`, `readMembers_dump`); bytes, Unicode; members are distinct because updates replace (`build_distinct`); invariant over channels and over the loop for sound (`Lemmas/JsonLines`, `Lemmas/OutputLines`) |
| C86 | the counts of `loadLocationDatabase` and the line (`Model/TmcData`, `Props/TableInfo`) | counting as a list without repetition of exactly the keys (`CountOf`); the folds over the rows tell which keys the maps have (`locations_loaded`). Partial: violated for names |
| C87 | the loops over `getline` and the names of the files (`Model/Files`); `Machine.files` gives the bytes of any path | the text of lines (`Spec/Files`: `TextOf`), in both directions; induction over the text; then C68, C69 and C84 speak of files (`Props/Files`) |
| C88 | `getOptions` and `main` (`Model/Options`, `Model/Main`); `getopt_long` is not modelled, its results are the list of options | the meaning of options (`Spec/CommandLine`: `lastChoice`, `inputChoice`, …, `ArgumentOk`); one lemma about what an option changes, then induction over the list (`Props/CommandLine`) |
| C89 | `updateAndPrint`, the decoders of groups and `processGroup` under two sets of options | two runs side by side: stations that differ in options only perform the same operations on all members that are kept (`twin_dispatch`), objects built from the same kept operations have the same kept members (`build_same`), invariant `OptionTwin` of two channels (`Lemmas/OutputOptions`, `Lemmas/OutputOptionsRun`, `Props/OutputOptions`). Violated for `-p`: half a letter in `partial_long_ps` replaces the line by an error report |
| C90 | all operations of all decoders on the JSON object | the schema is a table from paths to kinds of values (`Spec/Schema`); operations that fit it keep a conforming object conforming (`Lemmas/Schema`), every operation of every decoder fits it (`Lemmas/SchemaOps`, `Lemmas/SchemaApps`), frequencies by an invariant of the frequency lists (`AfWF.range`). `C90_members` says what conforming means for the single values. Reports of exceptions are apart: their `debug` is a text, while it is an array in all other lines (`C90_report`) |
| C91 | `unwrap`, `NCO::step`, `mixDown` and `reset` with rational angles in half turns instead of single precision; the oscillator of liquid-dsp shows only in the phases it reports | induction over the samples; one `unwrap` suffices because no carrier turns more than 4/3 of half a turn per sample. Observation: `reset` does not touch `phases_` and `prev_f0_phase_`, so the carriers of streams 1 to 3 are not where a new start would put them (`C91_no_new_start`); only their phase is affected, not their frequency (`C91_ratio` holds from any moment on) |
| C92 | the decision of `findBlockInInputRegister` about one word (`takenAs`, shown to be what is stored by `takenAs_stored`) | exact characterisation of the accepted words (`C92_taken_iff`); the syndrome commutes with shifting (multiplication by x modulo the generator), so ten columns anywhere are independent; counting by lists without repetitions. **Violated** for bursts in the third block: there offset C' is accepted as well as C, and at every place exactly one burst within ten bits makes a C block a C' block with other data (`C92_third_block_violated`, `C92_third_block`); single and double bit errors are detected there too. Bursts longer than eleven bits are not counted |
| C93 | all decoders of groups (`Station.dispatch`) and `updateAndPrint` | every decoder commutes with exchanging all members of the station that do not belong to its service (`Local`, `local_dispatch` in `Lemmas/Services`); then two stations side by side by induction over the groups. The services are those of `Spec/Services`; RadioText and open data applications are one service because RadioText Plus and assignments by 3A connect them. `C93_pi_needed`: groups without PI code do disturb each other, since the second in a row is dropped |
| C94 | `BlockStream` as for C05 to C10 | `C94_recovers_partial`: in step is kept on clean blocks (`right_step`); out of step, sync is lost within 50 blocks since only accidental codewords match (`wrong_log`, `lost_from`); sync that is found late enough is in step (`acquired_right`, by C07); from out of sync it is found within 13 blocks (`found_from`, by C08). The conditions on accidental codewords (`Spec.Unmistakable`) are shown to hold for a transmission with four of them. **Violation** without these conditions: `C94_false_lock_violated`, a repeated clean group that is received as another group, for ever, because its bits read from the 17th on are a valid group as well |
| C95 | all decoders of groups, with the strings, vectors and maps of a station | invariant over all events of a channel (`StationFits`, `channel_fits` in `Lemmas/Memory`), counted by `Spec.stationUse`. Everything else in a channel is of fixed size (arrays). Not counted: the members that the model omits (all of fixed size, or never written to), and input lines. Assumption on `iconv`: not more than three bytes for each byte |
| C96 | `runMain` with all loops over the input | readers of a longer input deliver the same items first (`hexInputGroups_longer`, `tefInputGroups_longer`, `asciiBitsFed_longer`, `mpxLoop_common` in `Lemmas/Causal`), and runs of a channel with the same first calls have a common part. The clock must show the same times during the common part. The bit that is fed at the end of text input (C41) and the group that a cut line gives (C39, C80) are the reason for the exception of the last line. With feed-through, the echo of the shorter input has an extra character at its end (C79) |
| C97 | `runMain` with all clocks (`now`, `later`, `delay`) and `strftime` (`conv`) | two runs side by side: without `-t` the channels differ at most in `last_rx_time_` (`TimeTwin`, `Lemmas/WallClock`), also through the loop over samples (`Alike`, `Lemmas/Alike`); the results of the program are equal, including failures. With `-t` both runs are compared with runs without it (C89), so only `rx_time` is different; this needs texts of times that are UTF-8 and usable service keys. `C89_sound` uses the same loop lemmas. Hexadecimal output with `-t` is in C99 |
| C98 | `runMain` with a command line and the same with `-u` inserted | two runs side by side: the channels are the same except for the option (`RegionTwin`, `Lemmas/Rbds`); the operations that build a line are related one by one (`OpRegion`), and this relation carries over to objects (`American`, `Spec/Rbds`). The callsign is that of C43. Assumes usable service keys, and that opening a recording does not depend on `-u` |
| C99 | `runMain` with `-x`, on two machines that have only the input in common | two runs side by side: the channels need only have the same block streams (`HexTwin`, `Lemmas/HexLines`); carried through the loop over samples with `Alike`. The layout of a line is stated in `Spec/HexLines`. Nothing about keys, tables or texts is assumed; both runs are assumed to succeed |
| C100 | `Channel.run` with bits for several streams, `processMPXInput` | induction over calls with the state of one stream in view (`Lemmas/DataStreams`): a call for another stream leaves it alone and hands over no group with its number. Combined with C73 for sound. That an incomplete group of stream 0 is not handed over at the end is C22 |
| C101 | `Channel.run`, `processMPXInput`, `runMain` with `--streams` | simulation between a channel that receives everything and one that receives stream 0 only (`Lemmas/UpperStreams`): they agree on all but the members that only groups of version C use. `Lemmas/UpperSound` carries it through chunks, resets and the end of input; with C89 for the member "stream". With `-t` and `-E` both runs are compared with runs without them (C89); `C101_error_rates` shows that error rates do depend on upper streams |
| C102 | as C84, for messages of several groups (`Props/TmcWords`) | C75 for messages of several groups, C67 for events and supplementary information (a line belongs to one row only), C69 for the place. Partial as C51: with 3 and 4 groups only fields in the first 28 bits are read |
| C103 | `numbered`, a channel with another number (`Lemmas/ChannelNumber`) | the station: each decoder commutes with an exchange of the number (from C93, locality of the services), the header has it only when there are several channels; calls and turns of the receiver by induction; several channels: C89 to one channel, the exchange, and C89 back. Sound: `same_chunks` by induction over the chunks; with `-t` the clock has to read the same at the end of both channels, because the rest of an upper stream gets its time there |
| C104 | `withoutPlace`, `withTables` (`Spec/PlaceMembers`) | a traffic message is written as a whole and then only members of it that are about the place are set (`location_ops`), so that the object without them stays (`place_build`); all other decoders do not see the tables; both lines are UTF-8, so that neither is an error report. Calls by induction, with the same state of the channel in both programs; sound by `Alike`; two command lines by C89, because the options are part of the state. The names in the tables are assumed to be UTF-8: a table with a broken name turns a traffic line into an error report. Without tables no operation writes one of the five members (`FreeOp`, every decoder by its member names; `printMessage` because an empty table gives nothing), so that nothing is dropped from the lines (`free_run`): the lines with tables, without the five members, are the lines without tables (`C104_only_added`) |
| C105 | `withoutLocation`, `AddsLocation`, `withKeys` (`Spec/KeyMembers`) | keys are used in `printMessage` alone, for a local copy of the message; the members of a decrypted message without the location are those of the encrypted one (`json_located`), and an encrypted message has no place. The line without keys has no location (`LocationFree`, because the operations before do not touch `tmc`), so that dropping the location from the line with keys gives it exactly. Calls by induction with the same state in both runs; sound by `Alike`; for the program the key file is taken away from the machine, and location tables are other files (`directory_same`). Keys with a shift above 24 are excluded for text, because of C68 |
| C60 | everything from bits to JSON (`Channel.run`) | well-formedness invariant of the whole state (`Station.Good`, stream invariants); each decoder only writes along a fixed path plan, so JSON values never clash |

## Violations found in the code

Each of these is a theorem (`..._violated`) with a concrete witness, unless marked "note".

* C06: a burst in a third block with offset C' is corrected against offset C and gives wrong data
  (this is the exception in the statement).
* C14: `has_c_prime_` is never set, so the 15B type from block 4 alone is never used.
* C16 (note, proved): two different wrong PI codes in a row reset the PI cache; the same PI is then
  announced again and all station data is erased.
* C17: PI 0x0000 is never confirmed after start-up (the cache starts with 0 as confirmed PI).
* C18: `long_ps` is passed to the JSON library as received; if it is not UTF-8 the whole line is
  replaced by `{"debug": ...}`.
* C20: `Channel::processGroup` sets `last_group_rx_time_` to the clock even if the clock is behind,
  so times can go backwards after two readings; groups with their own time are not compared at all.
* C22: `Channel::flush` starts with stream 1.
* C26: a text whose first segment is lost is merged into the previous complete text.
* C27: alternating 2A and 2B groups blank the text.
* C28: `charlen` counts positions of multi-byte characters incorrectly; a tag that ends at the last
  character is dropped (strict `<`).
* C29: in the group that carries the flag change the old message can be printed.
* C39: truncated hex lines mark absent blocks as received.
* C40: TEF6686 error flags are masked with 0xFF instead of 0x3.
* C41: at end of file an extra 0 bit is produced.
* C42: the last incomplete chunk of a multi-channel signal is given to every channel interleaved.
* C45: the day conversion formula takes 2100 for a leap year.
* C46: hour 24 is accepted.
* C49: `decodeType5`, `parseEnhancedRT` and `parseDAB` read blocks 3 and 4 without asking whether they
  were received; TEF6686 groups keep the type of a damaged block 2, whose flags are then printed.
* C56: a carriage return in front of a delimiter stays in the field.
* C57: `--samplerate nan` is accepted; an unknown option gives a successful exit code; (note) the
  channel count is reduced modulo 2^32 before the range check, so `-c 4294967297` is one channel.
* C63: the characters of block 4 of a 0B group are not used when block 3 is missing, although 0B carries
  only a repeated PI in block 3 (`psOps` says this; no printed text is wrong because of it). RadioText that
  is blank and has no end mark is printed at the first repetition already.
* C64 (note): a 0B group without block 3 counts as missing codes, which drops a method B list, although 0B
  carries no codes (`afEvents` says this; the list is sent again).
* C62: of the 12 bits of slow labelling variant 6 only 11 are printed; the mapped AM frequency of another
  network (14A variant 9) is always taken for an FM code.
* C51: in 3- and 4-group traffic messages only the first 28 bits are read.
* C66: a time quantifier with code 0 is printed as "00:-10", and codes 145–255 as times from 24:00 on.
* C67: 29 events of the list (417–422, 445–450, 496, 499, 583–588, 606, 616, 655, 930, 1519, 1533, 1547, 1573, 1822)
  have a text with quantifier that has no mark "(Q)"; a quantifier sent with them is taken and lost.
* C68: the shift `xorval << xorstart` of the decryption is not checked; a row of the key table with a start of 32 or
  more makes it undefined.
* C69: a point that has its road from its segment does not get the name of that road (it is overwritten by the name
  with number 0). (This is not visible in the output, see
  C84.) A row of POFFSETS.DAT with only one of the two neighbours, as at the ends of a road, is skipped.
* C72: sample rates above 34.2 MHz, up to the limit of 40 MHz, are accepted by `MPXReader::init`, but then
  `Resampler::setRatio` throws because the ratio is below 0.005. The exception leaves the constructor of `SubcarrierSet`,
  which is outside of the `try` in `processMPXInput`, so the program is aborted.
* C72: the counter of samples has 32 bits. 2^32 is not a multiple of 24, so after 7 hours without a reset the decimation
  shifts by 16 samples. A comment in the code mentions this.
* C71: a RadioText Plus tag that starts right after, or ends with, a character that is not ASCII is cut in the middle of
  a character (because of the mistake in character lengths, see above). The line is then not valid UTF-8, and the
  whole line is replaced by a `{"debug": …}` line. The same holds for bytes of a long PS (15A) that are not UTF-8.
* C74: hexadecimal output does not tell the offset word of block 3, and there is no line for a group without any block.
  A second program that reads it therefore (1) believes in version B without offset word C', (2) does not use a PI code
  that was received in block 3 only, (3) prints a group without PI code after a group without any block, (4) does not
  print groups without any block of the streams 1 to 3.
* C76: frequencies of another network are put into a fresh list that expects none, so that ordinary pairs of frequencies
  are never printed (`C76_frequencies_violated`, for all pairs; src/tmc/tmc.cc:543-559). The comment in the code says that lists
  without a number are to be printed right away.
* C76: a PI code in the second place of variant 8 with 0 in the first place is lost; "0x0000" is printed
  (`C76_codes_violated`; src/tmc/tmc.cc:561-563).
* C81: only the first `%f` of a time format is replaced, and `%%f` is taken for one (`C81_second_fraction_violated`,
  `C81_percent_violated`; src/util.cc:48-58). A text of 64 bytes or more, or an empty one, becomes "(format error)"
  (`C81_length_violated`). Times before 1970 get signs between the digits (`C81_before_1970_violated`).
* C83: a location table whose README.DAT names an encoding that `iconv` does not know terminates the program, for the
  exception of the constructor is not caught (`C83_encoding_violated`; src/tmc/tmc.cc:445-457, src/redsea.cc:205-234). So does a
  sample rate above 34.2 MHz (`C83_rate_violated`). Hexadecimal output begins with a JSON line for each location table
  (`C83_hex_output_violated`).
* C86: a point that has its road from a segment looks up its own road name with `operator[]`, which makes an empty entry if the
  row has none or the list does not; each is counted as one more name (`C86_names_violated`; src/tmc/locationdb.cc:145-149).
* C82: extended country code D1 with digit F is Nigeria, but the table has "bg" (Bulgaria) there (`C82_nigeria_violated`;
  src/tables.cc:83-84). The standard was not at hand; the list in `Spec/Countries` was written from memory.
* C89: with `-p`, a line is replaced by an error report while `partial_long_ps` ends in half a letter
  (`C89_partial_data_violated`; src/groups.cc:1014). Without `-p` the line is printed.
* C92: without correction a third block with a burst within ten bits may be stored with wrong data, because offset C' is
  accepted where C is expected whatever the version of the group is (`C92_third_block_violated`; src/block_sync.cc:271-272).

## Simplifications

* Floating point: the error rate average, the clock time conversion and frequencies in kHz are exact
  rational or integer computations. For each of them a margin theorem or an exactness argument in the
  comment shows that the rounding of the floating point code gives the same integer. Coordinates of
  traffic locations are abstract 32-bit values.
* The phases of the carriers (C91) are exact rational numbers in half turns. Apart from this, the oscillator is an arbitrary
  state machine like the other objects of liquid-dsp.
* Text output: the JSON object is a tree. How the library writes it is modelled from its documentation (`Model/JsonText`), except
  for the text of floating point numbers. The model knows which strings make it throw (not UTF-8). `iconv` (UCS-2) is an abstract function of the environment.
* Clock, delays and time formatting are parameters (any function). Theorems hold for all of them.
* Tables of texts (programme types, languages, country names, applications, event lists) are modelled in full
  (`Model/Tables`, `Model/TmcData`). Where a property does not speak about the texts, only the bounds of the index matter.
* For the decoders, location and event databases and keys are arbitrary functions (also cyclic, dangling). How they
  are loaded is modelled apart (C67–C69); administrative areas are left out, because nothing uses them.

## Not modelled

The inside of the objects of liquid-dsp (AGC, NCO, symbol synchroniser, FIR, modem, resampler: they are
arbitrary state machines in the model; the way the code uses them, and the decoders from symbols to bits, are
modelled), libsndfile, iconv, `getopt_long`, `strtof`,
the C++ runtime (`iostream`, locale, what `strftime`/`localtime` write for one conversion), the
texts that nlohmann/json writes for floating point numbers and in exceptions, texts of usage, version, errors and warnings, signal handling.

## Trusted base

* The Lean 4.33.0 kernel and the statements in `Verif/Props` and `Verif/Spec`.
* Axioms: only `propext`, `Classical.choice`, `Quot.sound`; the list below gives them per theorem. No
  own axioms, no `sorry`, no `native_decide`, no `bv_decide`.
* That the model matches the C++ code; it was written by reading the code.

<!-- axioms begin -->
Axioms of each theorem in `MANIFEST.json` (from `#print axioms`):

* none: C16_two_errors_reannounce_violated, C58_round_trip.
* `propext`: C13_group_pi_general, C16_applies_after_confirmation, C17_pi_zero_violated, C42_deinterleave_violated, C54_unknown, C58_inversion, decode_total.
* `Quot.sound`, `propext`: C06_cprime_burst_violated, C11_arithmetic, C11_shift_invariant, C12_group_type_hex, C14_15B_from_block4_violated, C28_multibyte_violated, C41_ascii_bits_partial, C45_float_margin, C59_index_in_range, C59_output, C59_sixty_four_bits, C79_bits, C87_every_text, C87_lines, takenAs_stored.
* `Classical.choice`, `Quot.sound`, `propext`: C01_codeword_recognised, C01_only_codewords, C02_burst_corrected, C03_correction_exact, C03_failure, C03_invalid_offset, C04_no_fec_only_clean_blocks, C04_received_blocks_genuine, C05_clean_stream_lossless, C06_bursty_stream_lossless, C07_three_consistent_pulses, C08_acquires_from_three_blocks, C09_sync_loss, C100_groups, C100_independent, C100_sound, C101_calls, C101_error_rates, C101_independent, C101_other_members, C101_program, C101_sound, C102_description_partial, C102_place_partial, C102_quantifier_partial, C103_not_printed, C103_program, C103_same_lines, C103_sound, C103_sound_hex, C104_nothing_to_drop, C104_only_added, C104_only_added_program, C104_only_added_program_sound, C104_only_added_sound, C104_program, C104_program_sound, C104_same_lines, C104_sound, C105_adds_locations, C105_program, C105_program_sound, C105_sound, C105_two_keys, C10_delivered_iff, C10_spacing, C12_group_type, C13_group_pi, C14_no_type_without_block2, C15_known_pi, C15_three_consecutive, C16_isolated_errors_harmless, C17_startup_third_group, C17_three_in_a_row_partial, C18_announced_three_times, C18_error_report_violated, C18_json_has_confirmed_pi_partial, C19_change_erases_station, C19_histories_do_not_matter, C19_station_of_channel, C20_buffers_partial, C20_clock_backwards_violated, C20_clock_steady_partial, C20_timed_groups_violated, C21_bler_last_twelve, C21_printed, C21_rounding_margin, C22_partial_group_handed_over_partial, C22_stream0_violated, C23_no_two_without_pi, C23_printed_iff, C24_complete_text_latest_bytes, C25_characters_after_the_end, C25_in_order_text_complete, C26_mixing_violated, C26_no_mixing_partial, C27_alternating_versions_violated, C27_radiotext_received_partial, C28_received_text_partial, C28_rtplus_substring_partial, C28_tag_at_end_violated, C29_change_group, C29_change_group_violated, C29_flag_separates_partial, C30_alt_freq_in_bounds, C30_decoder_in_bounds, C31_list_origin, C31_list_received, C31_printed_list_was_sent, C31_sent_list_is_printed, C32_fm, C32_injective, C32_lf_mf, C33_method_b, C34_base64_alphabet, C34_base64_decodes, C34_base64_length, C35_complete_file_is_printed, C35_oversized_announcement_ignored, C35_pipes_are_separate, C35_printed_file_is_consistent, C36_rft_in_bounds, C37_crc, C38_hex_file_round_trip, C38_hex_round_trip, C39_hex_blocks_partial, C39_hex_blocks_violated, C39_hex_damaged_partial, C40_tef_flags_partial, C40_tef_flags_violated, C40_tef_pi, C41_ascii_bits_violated, C42_deinterleave_partial, C42_single_channel, C42_whole_chunks, C43_callsign, C43_injective, C43_listed_codes, C44_decoder_tables_in_range, C44_tables_in_range, C45_clock_time_partial, C45_clock_time_violated, C45_invalid_iff, C45_missing_block, C46_pin_partial, C46_pin_violated, C47_application, C47_fixed_types, C47_latest_assignment, C47_routed, C48_frequencies, C48_name, C48_name_complete, C48_networks_separate, C48_state_of_one_network, C49_channel_partial, C49_dab_violated, C49_enhanced_radiotext_violated, C49_hex_input_type, C49_station_partial, C49_tef_type_violated, C49_transparent_data_violated, C50_decrypt, C50_injective, C50_no_key, C50_printed, C51_fields_partial, C51_violated, C52_incomplete, C52_own_groups, C52_printed, C53_before_encid, C53_history_before_encid, C53_history_uninitialized, C53_single, C53_uninitialized, C54_coordinates, C55_times, C56_access, C56_carriage_return_violated, C56_fields_partial, C56_titles, C57_accepted_partial, C57_exit_code_partial, C57_processing_partial, C57_rate_violated, C57_unknown_option_violated, C58_one_error, C60_never_fails, C61_ideal_signal, C62_application, C62_broadcaster_bits_violated, C62_common, C62_dab, C62_heard, C62_in_house, C62_mapped_am_violated, C62_other_network, C62_other_network_variants_partial, C62_programme_item, C62_radiotext_plus, C62_slow_labelling_partial, C62_switching, C62_transparent_data, C63_enhanced_radiotext_complete_partial, C63_enhanced_radiotext_partial, C63_long_ps, C63_long_ps_complete, C63_programme_type_name, C63_programme_type_name_complete, C63_ps, C63_ps_complete, C63_radiotext_complete, C63_radiotext_partial, C64_printed_lists_were_sent, C64_sent_lists_are_printed, C65_message_content_partial, C65_single_message, C66_description, C66_eight_bit_partial, C66_five_bit, C66_time_violated, C67_builtin_events, C67_builtin_supplementary, C67_quantifier_lost_violated, C67_quantifier_place_partial, C67_rows, C68_keys, C68_other_lines, C68_shift_violated, C68_usable_partial, C69_encoding, C69_locations, C69_number, C69_one_offset_violated, C69_road_name_partial, C69_road_name_violated, C70_every_group_printed, C70_hex_lines, C70_ps_printed, C70_radiotext_printed, C71_builtin_tables, C71_long_ps_violated, C71_radiotext_plus_violated, C71_utf8_check, C71_valid_output_partial, C72_any_chunks_partial, C72_bits_of_samples_partial, C72_counter_violated, C72_ideal_symbols_partial, C72_rates_partial, C72_rates_violated, C73_channel_stories, C73_ideal_symbols, C73_reception, C73_separate, C74_all_blocks, C74_ascii_bits_partial, C74_empty_data_violated, C74_empty_group_violated, C74_pipe_partial, C74_program_partial, C74_second_pi_violated, C74_version_violated, C75_before_service, C75_country, C75_encryption, C75_known, C75_location_table, C75_message_groups_partial, C75_no_encryption_id, C75_no_member, C75_printed, C75_service, C75_service_id, C75_single_message, C76_codes_partial, C76_codes_violated, C76_frequencies_violated, C76_frequency_partial, C76_network, C76_other_service, C76_provider, C76_provider_complete, C77_assignment, C77_assignment_data, C77_channel_data, C77_chunk_crc, C77_event, C77_file_crc, C77_file_info, C77_file_received, C77_file_sound, C77_files_and_channels, C77_segment, C77_transfer, C77_variant_data, C78_bler, C78_channel, C78_group_C, C78_pi, C78_raw_data, C78_stream, C78_time, C78_unannounced, C78_unknown_application, C79_hex, C79_mpx, C79_tef, C80_never_fails, C80_session, C81_before_1970_violated, C81_length_violated, C81_percent_violated, C81_printed, C81_second_fraction_violated, C81_time_partial, C82_country_partial, C82_nigeria_violated, C82_printed_partial, C83_bits_ps, C83_bits_reception, C83_encoding_violated, C83_hex_output_violated, C83_rate_violated, C83_sound_partial, C83_text_input_partial, C84_listed_event, C84_no_table, C84_place, C84_unlisted_event, C85_line, C85_program, C86_counts, C86_line, C86_names_partial, C86_names_violated, C87_keys, C87_missing, C87_number, C87_table, C88_accepted, C88_channels, C88_early_exit, C88_effects, C89_equal_lines, C89_no_partial_data, C89_partial_data_partial, C89_partial_data_violated, C89_program, C89_same_lines, C89_sound, C90_line, C90_members, C90_program, C90_report, C91_first, C91_from_start, C91_no_new_start, C91_range, C91_ratio, C92_burst11, C92_burst_partial, C92_noise_clean, C92_noise_corrected, C92_noise_pulses, C92_one_or_two_bits, C92_taken_iff, C92_third_block, C92_third_block_violated, C93_filter, C93_independent, C93_pi_needed, C94_false_lock_violated, C94_recovers_partial, C95_bounded, C95_each_bounded, C96_sound, C96_text, C96_whole_lines, C97_no_times, C97_only_times, C97_program, C98_lines, C98_program, C99_calls, C99_identical, C99_program.
<!-- axioms end -->
