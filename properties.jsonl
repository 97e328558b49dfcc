{"id": "C01", "title": "Every standard codeword is recognised", "statement": "A 26-bit block built as the RDS standard says (16 data bits, then the remainder of division by x^10+x^8+x^7+x^5+x^4+x^3+1, plus one of the five offset words) is classified by the receiver as carrying exactly that offset word, and its 16 data bits are returned unchanged.", "quantifier": "every 16-bit data word and every one of the offset words A, B, C, C', D", "why_tests_cant": "327680 codewords; tests use a handful of recorded groups. The receiver uses a parity-check matrix, the standard defines polynomial division: equality needs linearity, not samples.", "anchors": ["src/block_sync.cc: calculateSyndrome, getOffsetForSyndrome"]}
{"id": "C02", "title": "Burst correction restores the transmitted data", "statement": "If a transmitted block is hit by a single wrong bit or by two adjacent wrong bits, then error correction with the transmitted block's offset succeeds and returns exactly the transmitted 26 bits.", "quantifier": "every data word, every offset word, every position of a one- or two-bit burst inside the 26-bit block", "why_tests_cant": "About 16.7 million cases; the unit test flips bits 1 and 2 of one group.", "anchors": ["src/block_sync.cc: makeErrorLookupTable, correctBurstErrors"]}
{"id": "C03", "title": "Burst correction never invents data", "statement": "Whenever error correction reports success, the returned word is a valid codeword for the expected offset and it differs from the received word by one bit or by two adjacent bits; when no such codeword exists it reports failure and leaves the word alone.", "quantifier": "every received 26-bit word and every expected offset", "why_tests_cant": "2^26 words times five offsets; tests only show one rejected triple flip.", "anchors": ["src/block_sync.cc: makeErrorLookupTable, correctBurstErrors"]}
{"id": "C04", "title": "With correction disabled only clean blocks are accepted", "statement": "With --no-fec, every block marked as received in any group delivered by the synchroniser is the data part of 26 consecutive input bits whose checkword and offset word are exactly right for that block position. With correction on, the 26 bits are within a burst of at most two bits of such a codeword.", "quantifier": "every input bit sequence of any length, every point at which a group is delivered", "why_tests_cant": "Quantifies over all bit histories and synchroniser states; tests feed a few recorded streams.", "anchors": ["src/block_sync.cc: BlockStream::pushBit, findBlockInInputRegister", "src/groups.cc: Group::setBlock"]}
{"id": "C05", "title": "A clean synchronised stream is decoded without loss", "statement": "Once the decoder is synchronised at a group boundary, feeding it the standard encoding of any sequence of groups yields exactly that sequence of groups, in order, each with all four blocks received and zero errors, and the decoder stays synchronised.", "quantifier": "every list of groups (any data, versions A and B), every synchronised state at a group boundary reachable from start-up, correction on or off", "why_tests_cant": "Unbounded streams and arbitrary previous error history.", "anchors": ["src/block_sync.cc: BlockStream", "src/groups.cc: Group::setBlock"]}
{"id": "C06", "title": "A bursty synchronised stream is decoded without loss", "statement": "With correction on, the same holds when every block of a group may carry at most one burst of one or two bits (except a version B third block, whose correction needs the clean C' word), as long as the error tolerance of the synchroniser is not exceeded: the delivered data are the transmitted data and exactly the damaged blocks are counted as erroneous.", "quantifier": "every group, every choice of bursts in its blocks, every synchronised state at a group boundary", "why_tests_cant": "Combinatorial number of burst patterns and histories.", "anchors": ["src/block_sync.cc: BlockStream::findBlockInInputRegister, correctBurstErrors"]}
{"id": "C07", "title": "Synchronisation is only declared on three consistent pulses", "statement": "The decoder goes from unsynchronised to synchronised only at a bit where the last 26 bits carry a valid offset word and two earlier such positions exist with the three positions pairwise a whole number of blocks (at most six) apart and offset words in the transmission order A B C/C' D for that spacing.", "quantifier": "every input bit sequence and every moment at which lock is acquired", "why_tests_cant": "All histories; phantom-sync tests contain one noise sample.", "anchors": ["src/block_sync.cc: SyncPulse::couldFollow, SyncPulseBuffer, BlockStream::acquireSync"]}
{"id": "C08", "title": "Synchronisation is acquired from three clean blocks", "statement": "If three consecutive clean blocks of a transmission are received while unsynchronised, and at most one accidental offset match occurs at other bit positions between the first and the third block ends, then the decoder is synchronised, with the right block phase, at the latest at the end of the third block.", "quantifier": "every previous state, every three consecutive clean blocks, every offset phase", "why_tests_cant": "Depends on arbitrary previous buffer content.", "anchors": ["src/block_sync.cc: BlockStream::acquireSync, SyncPulseBuffer::isSequenceFound"]}
{"id": "C09", "title": "Synchronisation loss follows the 50-block error window", "statement": "While synchronised, synchronisation is dropped at a block if and only if more than 42 of the last 50 blocks (counting that block, since the window was last cleared) failed their check; the window is cleared on a drop.", "quantifier": "every block history of any length", "why_tests_cant": "Ring-buffer window over unbounded histories.", "anchors": ["src/block_sync.cc: BlockStream::findBlockInInputRegister", "src/util.hh: RunningSum"]}
{"id": "C10", "title": "Groups are delivered immediately and exactly once", "statement": "A group becomes available exactly at the last bit of its fourth block slot, never earlier, later or twice: while synchronised, each time a D slot ends without losing synchronisation one group is delivered and at no other bit.", "quantifier": "every input bit sequence, every bit position", "why_tests_cant": "Was a real regression (#126); needs all states.", "anchors": ["src/block_sync.cc: BlockStream::pushBit, handleNewlyReceivedGroup, popGroup", "src/channel.cc: Channel::processBit"]}
{"id": "C11", "title": "Bit counter overflow does not disturb pulse comparison", "statement": "Whether one sync pulse may follow another depends only on their distance modulo 2^32: adding any constant to both bit positions (with 32-bit wraparound) does not change the verdict, and for true distances below 2^32 the verdict is the arithmetic one.", "quantifier": "every pair of pulses and every 32-bit shift", "why_tests_cant": "Needs 41 days of data to reach; not testable.", "anchors": ["src/block_sync.cc: SyncPulse::couldFollow"]}
{"id": "C12", "title": "Group type comes from block 2, confirmed by the right third offset", "statement": "For groups assembled from a bit stream: the group has a type exactly when block 2 was accepted and either its version bit says A, or it says B and a C' block was accepted after it; the type number and version are those in the top five bits of block 2. For hex input a type is known exactly when block 2 is present.", "quantifier": "every subset of received blocks, all block contents and offsets", "why_tests_cant": "All contents times all loss patterns.", "anchors": ["src/groups.cc: Group::setBlock, GroupType"]}
{"id": "C13", "title": "The PI of a group", "statement": "A group (not on an RDS2 extra stream) yields a PI exactly when block 1 was received or a C' block was received; the PI is block 1 when present, otherwise the C' block.", "quantifier": "every loss pattern and content", "why_tests_cant": "All loss patterns.", "anchors": ["src/groups.cc: Group::hasPI, Group::getPI"]}
{"id": "C14", "title": "A 15B group is recognised from block 4 when block 2 is lost", "statement": "When block 2 is lost but a C' third block and a block 4 whose type code says 15B are received, the group is recognised as 15B (the code has a dedicated branch and a test with this title).", "quantifier": "every content of blocks 1, 3 and 4", "why_tests_cant": "The existing test sets block 2's type before deleting it, so it passes although the branch can never run.", "anchors": ["src/groups.cc: Group::setBlock (has_c_prime_), Station::decodeBasics, Station::decodeType15B"]}
{"id": "C15", "title": "PI changes need three consecutive receptions", "statement": "A change of station is confirmed by a received PI code only if that code is equal to each of the two PI codes received directly before it.", "quantifier": "every sequence of received PI codes and carrier resets", "why_tests_cant": "All histories.", "anchors": ["src/channel.hh: CachedPI::update, CachedPI::reset"]}
{"id": "C16", "title": "A single corrupted PI never disturbs a confirmed station", "statement": "After a station is confirmed, one wrong PI code between correct ones neither confirms another station nor causes the confirmed station to be announced again.", "quantifier": "every confirmed PI (non-zero), every history leading to it, every wrong code", "why_tests_cant": "All histories and codes.", "anchors": ["src/channel.hh: CachedPI::update"]}
{"id": "C17", "title": "Every station transmitting one stable PI is eventually decoded", "statement": "From start-up, three groups in a row with the same PI code confirm that PI, so that decoding of the station starts.", "quantifier": "every 16-bit PI code", "why_tests_cant": "PI 0x0000 is a corner case no test covers.", "anchors": ["src/channel.hh: CachedPI::update", "src/channel.cc: Channel::processGroup"]}
{"id": "C18", "title": "No JSON before the PI is confirmed, and all JSON carries the confirmed PI", "statement": "With JSON output nothing is printed before a PI was confirmed; afterwards every printed line for an A or B group has as its pi member the most recently confirmed PI formatted as 0x and four upper-case hexadecimal digits.", "quantifier": "every sequence of groups", "why_tests_cant": "All histories.", "anchors": ["src/channel.cc: Channel::processGroup", "src/groups.cc: Station::updateAndPrint"]}
{"id": "C19", "title": "A confirmed station change erases all previous station data", "statement": "At the group that confirms a new PI and for all later groups, the output of the channel is the same as that of a freshly started decoder that already knows the PI: nothing received before the change can influence later output (apart from the shared error-rate average and clock).", "quantifier": "every pair of group histories ending in the confirmation of the same PI, every continuation", "why_tests_cant": "Non-interference over all histories.", "anchors": ["src/channel.cc: Channel::processGroup", "src/groups.cc: Station::Station"]}
{"id": "C20", "title": "Receive timestamps never go backwards", "statement": "The receive times attached to successive groups of a channel are non-decreasing, even when the clock is read as going backwards.", "quantifier": "every sequence of groups/bit buffers and every sequence of clock readings", "why_tests_cant": "Needs a misbehaving clock; no test.", "anchors": ["src/channel.cc: Channel::processBits, Channel::processGroup"]}
{"id": "C21", "title": "Block error rate is the exact average over the last twelve groups", "statement": "The reported bler is the percentage of erroneous blocks among the blocks of the last 12 groups (groups before start-up count as error-free), rounded to the nearest integer; it is always between 0 and 100.", "quantifier": "every sequence of groups with any error pattern", "why_tests_cant": "Running window with incremental subtraction; drift shows only in long runs.", "anchors": ["src/util.hh: RunningAverage", "src/channel.cc: Channel::processGroup"]}
{"id": "C22", "title": "A partial last group is reported at end of input", "statement": "When the input ends, every received block of an unfinished last group is still processed, on every data stream.", "quantifier": "every bit history", "why_tests_cant": "Tests always end on a group boundary.", "anchors": ["src/channel.cc: Channel::flush", "src/block_sync.cc: BlockStream::flushCurrentGroup"]}
{"id": "C23", "title": "At most one group without PI is decoded in a row", "statement": "For A and B groups, a group without a PI produces a line only if the group before it (of the same kind) had a PI; an empty group produces no line.", "quantifier": "every sequence of groups of a station", "why_tests_cant": "All histories.", "anchors": ["src/groups.cc: Station::updateAndPrint"]}
{"id": "C24", "title": "A complete text consists of the latest received bytes", "statement": "Whenever a text (PS, RadioText, PTY name, long PS, EON PS) is reported complete, each of its characters is the latest byte received for that position, and every one of those bytes was received at or after the most recent reception of position 0 and after the most recent clear.", "quantifier": "every sequence of byte receptions and clears, any buffer size", "why_tests_cant": "All reception orders with gaps, repeats and clears.", "anchors": ["src/text/rdsstring.cc: RDSString::set, isComplete, getData, clear"]}
{"id": "C25", "title": "A text received in order is complete and exact", "statement": "Receiving positions 0,1,2,... in order up to the end of the buffer (or up to the first 0x0D) makes the text complete with exactly these characters (0x0D and 0x00 shown as blanks), whatever was in the buffer before.", "quantifier": "every previous state of the buffer and every byte sequence", "why_tests_cant": "Depends on arbitrary stale buffer contents.", "anchors": ["src/text/rdsstring.cc: RDSString::set"]}
{"id": "C26", "title": "A complete text never mixes two transmissions", "statement": "A text reported as complete is a text that was transmitted as a whole: bytes of two different transmissions of the same field are never combined.", "quantifier": "every pair of transmitted texts and every loss pattern", "why_tests_cant": "Needs adversarial loss patterns.", "anchors": ["src/text/rdsstring.cc: RDSString::set, isComplete", "src/groups.cc: Station::decodeType0"]}
{"id": "C27", "title": "A complete RadioText contains only received characters when versions alternate", "statement": "The same guarantee (each displayed character was received) also holds when a station alternates between 64-character (2A) and 32-character (2B) RadioText.", "quantifier": "every sequence of 2A and 2B groups", "why_tests_cant": "No test mixes 2A and 2B.", "anchors": ["src/text/rdsstring.cc: RDSString::resize", "src/groups.cc: Station::decodeType2"]}
{"id": "C28", "title": "RT+ tags select exactly the tagged characters", "statement": "An RT+ tag with start s and length n yields characters s..s+n-1 of the last complete RadioText, for any text including characters that are encoded as several bytes.", "quantifier": "every complete text and every tag inside it", "why_tests_cant": "The existing test has ASCII characters at both ends of the tags.", "anchors": ["src/text/rdsstring.hh: charlen", "src/text/rdsstring.cc: RDSString::getLastCompleteString(start,len)"]}
{"id": "C29", "title": "The RadioText A/B flag separates messages", "statement": "After an A/B flag change, no character received before the change appears in any RadioText printed later, until it is received again.", "quantifier": "every sequence of group 2A receptions", "why_tests_cant": "All histories.", "anchors": ["src/groups.cc: Station::decodeType2", "src/text/rdsstring.cc: RDSString::clear"]}
{"id": "C30", "title": "Alternative frequency lists never access memory out of bounds", "statement": "Whatever codes are received, all accesses to the 25-entry frequency array by insertion, the method B test and the list read-out stay inside the array, and the number of received entries never exceeds the announced number, which never exceeds 25.", "quantifier": "every sequence of AF codes and clears", "why_tests_cant": "All code sequences.", "anchors": ["src/util.cc: AltFreqList::insert, isMethodB, getRawList"]}
{"id": "C31", "title": "A complete frequency list is exactly the transmitted list", "statement": "An announcement code for n frequencies followed by n valid frequency codes (with fillers in between and LF/MF codes introduced by code 250) makes the list complete exactly at the last one, with precisely the frequencies of the codes in order; a completed list always arises that way.", "quantifier": "every n in 1..25, every list of codes, every previous state", "why_tests_cant": "25 lengths times 204^n lists.", "anchors": ["src/util.cc: AltFreqList::insert, isComplete, getRawList"]}
{"id": "C32", "title": "Frequency codes map to the standard grid", "statement": "FM code c (1..204) means 87500+100c kHz, LF code 1..15 means 144+9c kHz, MF code 16..135 means 531+9(c-16) kHz; distinct valid codes of a band mean distinct frequencies inside the band limits; other codes are not frequencies.", "quantifier": "all 16-bit codes, both bands", "why_tests_cant": "Small table, but tests check three codes.", "anchors": ["src/util.cc: CarrierFrequency"]}
{"id": "C33", "title": "Method B lists are paired correctly", "statement": "For a complete list classified as method B the list has odd length, every pair contains the tuned frequency, no pair is cut off, and the printed same-programme and regional lists together contain the non-tuned frequency of each pair exactly once and in order, split by ascending/descending pair order.", "quantifier": "every complete list", "why_tests_cant": "All lists up to 25 entries.", "anchors": ["src/util.cc: AltFreqList::isMethodB", "src/groups.cc: Station::decodeType0"]}
{"id": "C34", "title": "Base64 output decodes to the file", "statement": "Decoding the emitted text with the standard Base64 decoder gives back exactly the input bytes; its length is four times the number of started 3-byte chunks and it uses only the standard alphabet with padding only at the end.", "quantifier": "every byte sequence of any length", "why_tests_cant": "Unbounded input.", "anchors": ["src/base64.hh: asBase64"]}
{"id": "C35", "title": "A reported RFT file is complete and consistent", "statement": "When file contents are emitted on a pipe, they are exactly as many bytes as announced last (announcements above 163840 bytes cannot be addressed and are ignored), each being the byte of the latest segment received for its address, and all of these segments were received after the latest toggle change and after the previous emission. A file is emitted as soon as its last missing segment arrives, and pipes do not influence each other.", "quantifier": "every sequence of size announcements and segments on a pipe", "why_tests_cant": "All reception orders of up to 32768 segments with repeats, losses and toggles.", "anchors": ["src/rft.hh: RFTFile", "src/groups.cc: Station::decodeC"]}
{"id": "C36", "title": "RFT buffers are never accessed out of bounds", "statement": "Any 18-bit size announcement, 15-bit segment address and 9-bit CRC chunk address leads only to in-bounds buffer accesses.", "quantifier": "all announcements and segments in any order", "why_tests_cant": "Sizes above 163840 never appear in tests.", "anchors": ["src/rft.hh: RFTFile::setSize, receive, hasNewCompleteFile, getBase64Data, receiveCRC"]}
{"id": "C37", "title": "The CRC routine is CRC-16/CCITT", "statement": "The checksum equals the bit-by-bit CRC with polynomial x^16+x^12+x^5+1, initial value 0xFFFF and inverted output.", "quantifier": "every byte sequence of any length, any start address", "why_tests_cant": "Unbounded input; the code is a branch-free rewrite on a 32-bit register with garbage in the high bits.", "anchors": ["src/rft.hh: crc16_ccitt"]}
{"id": "C38", "title": "Hex output can be read back", "statement": "A non-empty group printed in hex format and read back by the hex reader gives the same four blocks, the same missing blocks and the same data stream number, with or without a trailing timestamp.", "quantifier": "every non-empty group, every stream number 0..3, every timestamp text without line breaks", "why_tests_cant": "2^64 groups times loss patterns.", "anchors": ["src/groups.cc: Group::printHex", "src/io/output.hh: printAsHex", "src/io/input.cc: readHexGroup"]}
{"id": "C39", "title": "The hex reader only accepts fully transmitted blocks", "statement": "A block read from a hex line is marked as received only if the line contains four hexadecimal digits for it.", "quantifier": "every input line", "why_tests_cant": "Truncated and blank lines are not tested.", "anchors": ["src/io/input.cc: readHexGroup"]}
{"id": "C40", "title": "TEF6686 error flags select exactly the damaged blocks", "statement": "Reading a TEF6686 line, blocks 2, 3 and 4 are marked as received exactly when their own two-bit error field is zero, and block contents of damaged blocks are not used.", "quantifier": "every error byte and block content", "why_tests_cant": "256 error bytes; no test.", "anchors": ["src/io/input.cc: readTEFGroup"]}
{"id": "C41", "title": "The bit reader feeds exactly the 0/1 characters", "statement": "With --input bits the decoder receives exactly the '0' and '1' characters of the input, in order, all other characters being ignored.", "quantifier": "every finite input character sequence", "why_tests_cant": "End-of-file behaviour is not covered by tests.", "anchors": ["src/io/input.cc: AsciiBitReader::readBit", "src/redsea.cc: processASCIIBitsInput"]}
{"id": "C42", "title": "Multi-channel input is de-interleaved without loss", "statement": "Channel c of n receives exactly the samples c, c+n, c+2n, ... of the input, each once and in order, up to the last complete frame.", "quantifier": "every number of channels 1..32, every input length", "why_tests_cant": "Depends on the total length modulo the chunk size.", "anchors": ["src/io/input.cc: MPXReader::fillBuffer, readChunk", "src/redsea.cc: processMPXInput"]}
{"id": "C43", "title": "Callsigns invert the NRSC PI assignment", "statement": "For every call letter combination Kxyz or Wxyz, computing the PI code with the NRSC-4-B rule (including the replacements that avoid zero digits) and decoding it returns the same call letters.", "quantifier": "all 35152 four-letter call signs", "why_tests_cant": "Tests check three codes.", "anchors": ["src/tables.cc: getCallsignFromPI"]}
{"id": "C44", "title": "Table lookups never go out of range", "statement": "PTY, DI, country, language, RT+ content type, DAB mode and TMC gap lookups are performed with indices inside their tables for every received bit pattern (no exception, no invalid access).", "quantifier": "all field values reachable from received blocks", "why_tests_cant": "All bit patterns.", "anchors": ["src/tables.cc", "src/groups.cc: Station::decodeBasics, decodeType0, decodeType1, parseDAB", "src/tmc/tmc.cc: TMCService::receiveSystemGroup"]}
{"id": "C45", "title": "Clock-time and date are converted correctly", "statement": "A valid 4A group yields the Gregorian calendar date and local time that correspond to its Modified Julian Day, UTC time and half-hour offset, also across midnight, month and year ends.", "quantifier": "all 17-bit MJD values from 15079 on, all hours, minutes and offsets", "why_tests_cant": "The formula uses floating point with magic constants; five dates are tested.", "anchors": ["src/groups.cc: Station::decodeType4A"]}
{"id": "C46", "title": "Programme item numbers are only reported when valid", "statement": "A PIN is reported if and only if it denotes a valid day (1..31), hour and minute, and the printed day and HH:MM are those fields.", "quantifier": "all 65536 PIN values", "why_tests_cant": "Two PINs are tested.", "anchors": ["src/groups.cc: decodePIN", "src/util.cc: getHoursMinutesString"]}
{"id": "C47", "title": "Open data groups are routed by the latest assignment", "statement": "A group of an ODA-capable type is decoded by the application most recently assigned to that group type by a 3A group of the same station; without assignment it is decoded by its primary function or shown as unknown ODA; types 0, 1, 2, 3A, 4A, 10A, 14 and 15B can never be redirected.", "quantifier": "every sequence of groups of a station", "why_tests_cant": "All assignment histories.", "anchors": ["src/groups.cc: Station::updateAndPrint, decodeType3A, decodeODAGroup"]}
{"id": "C48", "title": "EON data are kept separate per network", "statement": "Name and frequency-list reception for one other network is not affected by groups that refer to a different network.", "quantifier": "every interleaving of 14A groups for any number of networks", "why_tests_cant": "All interleavings.", "anchors": ["src/groups.cc: Station::decodeType14"]}
{"id": "C49", "title": "Data of blocks that were not received are not shown", "statement": "No decoded output depends on the stale or zero contents of a block that was not received.", "quantifier": "every group with missing blocks", "why_tests_cant": "All loss patterns for all group types.", "anchors": ["src/groups.cc: Station::decodeType5, parseEnhancedRT, parseDAB, decodeType15B"]}
{"id": "C50", "title": "TMC location decryption inverts the broadcaster's encryption", "statement": "Decrypting with a service key recovers exactly the location code that was encrypted with it, and different encrypted codes give different locations.", "quantifier": "every location code, every key with 8-bit value, shift below 16 and any rotation", "why_tests_cant": "2^16 codes times all keys.", "anchors": ["src/tmc/tmc.cc: Message::decrypt, rotl16"]}
{"id": "C51", "title": "Free-format TMC fields are decoded as transmitted", "statement": "The label/value fields packed by the broadcaster into the groups of a multi-group message are recovered in order.", "quantifier": "every field list that fits into the message, every message length from 2 to 5 groups", "why_tests_cant": "All field lists; tests contain only 2-group messages.", "anchors": ["src/tmc/tmc.cc: getFreeformFields, popBits", "src/tmc/tmc.cc: Message::pushMulti, decodeMulti"]}
{"id": "C52", "title": "A multi-group TMC message is only built from its own groups", "statement": "A printed multi-group message uses only groups carrying its own continuity index received since the last message ended; a group with another index discards the collected parts, and without its first group nothing is printed.", "quantifier": "every sequence of user groups", "why_tests_cant": "All interleavings.", "anchors": ["src/tmc/tmc.cc: TMCService::receiveUserGroup, Message::pushMulti"]}
{"id": "C53", "title": "Single-group TMC messages carry the transmitted fields", "statement": "For a single-group message of an unencrypted service the printed event code, location, direction and extent are the ones encoded in the group, and nothing is printed before the service has been initialised by a system group or, for encrypted services, before the encryption administration group.", "quantifier": "every user group and service state", "why_tests_cant": "All 2^37 messages.", "anchors": ["src/tmc/tmc.cc: TMCService::receiveUserGroup, Message::pushSingle, Message::json"]}
{"id": "C54", "title": "Walking the location database terminates", "statement": "For any location database, even a cyclic or broken one, the list of coordinates printed for a message has between 1 and |extent|+1 entries when the location is known (none otherwise), starts at the message's location and follows the database's offset links. (What else is printed about the place - names of the ends, number and name of the road - is part of C75.)", "quantifier": "every location database and message", "why_tests_cant": "Databases are external data.", "anchors": ["src/tmc/tmc.cc: decodeLocation"]}
{"id": "C55", "title": "TMC times and quantifiers are within range", "statement": "Each 8-bit start/stop time code denotes exactly one of: a quarter hour 00:00-23:45, an hour within the next days, a day of month 1..31, or the middle/end of a month January..December; the text printed is that one.", "quantifier": "all 256 codes", "why_tests_cant": "One code is tested.", "anchors": ["src/tmc/tmc.cc: getTimeString"]}
{"id": "C56", "title": "CSV rows split exactly at delimiters", "statement": "The fields of a CSV row are the pieces of the line, up to its line end, between delimiters: joining them with the delimiter gives back the line and no field contains the delimiter or line end; field access never reads outside the line.", "quantifier": "every line and delimiter", "why_tests_cant": "The parser works with offsets; corner cases (CR, trailing delimiter, empty fields) are untested.", "anchors": ["src/tmc/csv.hh: CSVRow"]}
{"id": "C57", "title": "Accepted option combinations are consistent", "statement": "Whenever option parsing returns normally: the number of channels is 1..32, a defined raw sample rate lies in 128 kHz..40 MHz, feed-through is not combined with a sound file, several channels only with MPX, RDS2 streams only with MPX or hex input, raw MPX always has a sample rate, and a failed parse always leads to a failure exit code.", "quantifier": "every sequence of command line options", "why_tests_cant": "All combinations and orders of options.", "anchors": ["src/options.cc: getOptions", "src/redsea.cc: main"]}
{"id": "C58", "title": "Differential decoding is insensitive to polarity and recovers from errors", "statement": "Decoding a differentially encoded bit sequence returns the original bits; inverting the whole input changes at most the first output bit; one wrong input bit affects exactly two output bits.", "quantifier": "every bit sequence of any length", "why_tests_cant": "Unbounded sequences.", "anchors": ["src/dsp/subcarrier.cc: DeltaDecoder::decode"]}
{"id": "C59", "title": "The biphase clock stays in range and yields one bit per symbol pair", "statement": "The biphase decoder's history index always stays inside its 128-entry buffer, and in every window of 128 symbols exactly 64 bits are output, at alternate symbols; the clock phase is re-decided only at window ends, in favour of the phase with the larger accumulated energy.", "quantifier": "every symbol sequence", "why_tests_cant": "Unbounded sequences.", "anchors": ["src/dsp/subcarrier.cc: BiphaseDecoder::push"]}
{"id": "C60", "title": "Decoding never fails on any input", "statement": "Whatever bits or groups are received, in whatever order and with whatever clock readings, decoding never accesses an array out of range, never throws and never combines JSON values of incompatible types.", "quantifier": "every sequence of bits, bit buffers, groups, resets and ends of input, for all options", "why_tests_cant": "Reachable states of the whole decoder are unbounded; an out-of-range access needs a particular combination of fields received in a particular order.", "anchors": ["src/channel.cc: Channel", "src/groups.cc: Station::updateAndPrint, decodeType*", "src/tmc/tmc.cc: TMCService", "src/text/rdsstring.cc: RDSString", "src/rft.hh: RFTFile"]}
{"id": "C61", "title": "An ideal biphase signal is decoded correctly", "statement": "When differentially encoded bits are sent as biphase symbols of any positive amplitude, the biphase and delta decoders output one bit per transmitted bit, and from the 66th bit on (after the first clock window) every output bit equals the transmitted one, whatever the start state of the encoder.", "quantifier": "every bit sequence of at least 65 bits, every amplitude, both encoder start states", "why_tests_cant": "Unbounded bit sequences; the clock decision depends on the energies accumulated over each window.", "anchors": ["src/dsp/subcarrier.cc: BiphaseDecoder::push, DeltaDecoder::decode", "src/dsp/subcarrier.cc: SubcarrierSet::processChunk"]}
{"id": "C62", "title": "Fields of a group are printed with the values that were sent", "statement": "For every station history and every group that is printed, the members of the JSON object have the values that the transmitter put into the bits of the group: group type, TP, PTY; TA, music/speech and decoder information in 0A/0B/15B; slow labelling codes and programme item number in 1A/1B; the announced application in 3A; transparent and in-house data in 5A, 6A, 6B; PI, TP, TA, PTY, frequency, linkage, programme item and broadcaster data of other networks in 14A/14B; mode, frequency, channel and ensemble of DAB cross references; item flags and tags of RadioText Plus.", "quantifier": "every environment, option set, station history, group (bit layout of IEC 62106 as a separate transmitter-side specification) and every value of every field", "why_tests_cant": "The values depend on all bits of three blocks and on the assignments and texts of an unbounded history; tests show a few recorded groups.", "anchors": ["src/groups.cc: decodeBasics, decodeType0, decodeType1, decodeType3A, decodeType5, decodeType6, decodeType14, decodeType15B, parseDAB, parseRadioTextPlus", "src/util.hh: getBits, getBool, getUint8"]}
{"id": "C63", "title": "The texts of a station are printed as they were sent", "statement": "For every station history: the programme service name, programme type name, long programme service name, RadioText and enhanced RadioText that are printed with a group consist of the characters latest received for this station in groups of the right kind, since the last change of the text; they are whole texts (or a RadioText without end mark that was repeated); and a text that was received in order is printed with the group that completes it. Other groups, applications and networks do not disturb them.", "quantifier": "every environment, option set, station history of any length and printed group", "why_tests_cant": "The texts are assembled over an unbounded history of groups in any order, with missing blocks, repeated and replaced segments, flag changes and applications that are assigned on the way.", "anchors": ["src/groups.cc: decodeType0, decodeType2, decodeType3A, decodeType10A, decodeType15A, parseRadioTextPlus, parseEnhancedRT", "src/text/rdsstring.cc: RDSString::set, getData, str", "src/text/radiotext.hh: RadioText"]}
{"id": "C64", "title": "The alternative frequencies of a station are printed as they were sent", "statement": "For every station history: a list of alternative frequencies that is printed with a group (method A list, method B list with tuned frequency, same programme and regional variants, or, on request, a partial list) belongs to a 0A group with block 3, and the codes received in 0A groups of this station end in the announcement of n frequencies followed by codes for exactly the frequencies shown, all n of them unless the list is marked as partial. Conversely a list whose codes were received in order is printed with the group that completes it. Other groups do not disturb the list.", "quantifier": "every environment, option set, station history of any length and printed group", "why_tests_cant": "The list is assembled over an unbounded history of groups with missing blocks, interleaved with all other groups.", "anchors": ["src/groups.cc: decodeType0", "src/util.cc: AltFreqList, CarrierFrequency"]}
{"id": "C65", "title": "A traffic message is printed with the meaning of its fields", "statement": "For every single-group message and every multi-group message whose groups are received in order: the printed event codes are the event of the first group followed by the additional events; supplementary information and diversion routes are listed in order; speed limit, start and stop time are the latest ones sent; the description has one sentence for each known event, with the first quantifier of the right size that follows the event and precedes the next one, and one sentence for each known supplementary information; control codes turn the urgency, reverse the direction and enlarge the extent; the location is the one sent, or the decrypted one.", "quantifier": "every event list, service key table, service state, first group and list of fields that fits the message", "why_tests_cant": "Messages carry any sequence of labelled fields, and the meaning of a field depends on the fields before it and on the event list.", "anchors": ["src/tmc/tmc.cc: Message::pushMulti, decodeMulti, Message::json", "src/tmc/tmc.cc: getFreeformFields"]}
{"id": "C66", "title": "Quantifiers of traffic events have the value of the standard", "statement": "For each of the 13 types of quantifiers and every code, the text put in the place of the mark (Q) in the description of an event is the value at this place in the table of the type (ISO 14819-2), with its unit; the rest of the description is unchanged. Codes without a value are not shown as a value.", "quantifier": "all types and codes, all descriptions", "why_tests_cant": "The tables have jumps in the step size and special codes (0 for 32, codes beyond the end), different for each type; samples miss the places where the step changes.", "anchors": ["src/tmc/tmc.cc: getDescriptionWithQuantifier, getQuantifierSize", "src/util.cc: CarrierFrequency::str"]}
{"id": "C67", "title": "The event list is loaded completely and as written", "statement": "For every event list in the format of the program, the latest row of each code is loaded as the event that the row describes (texts, quantifier type, direction, urgency, update class), and nothing else. In the list of the program every row is loaded (none is skipped by an exception), no code occurs twice, all codes fit into the 11 bits of a message, and every event that takes a quantifier has a place for it in its text. The supplementary information is loaded without an exception, each code once.", "quantifier": "all event lists; all rows of the built-in tables", "why_tests_cant": "Rows that cannot be read are skipped silently, and a damaged row among 1552 shows only when that event is broadcast.", "anchors": ["src/tmc/tmc.cc: loadEventData", "src/tmc/events_data.cc", "src/tmc/csv.cc, src/tmc/csv.hh"]}
{"id": "C68", "title": "The keys of encrypted traffic messages are those of the key table", "statement": "For every key table, the key used for an encryption identifier is the one in the first row with that identifier, with the three numbers written there; identifiers that are not in the table have no key. Lines that are no rows (titles, comments, missing cells) are skipped and do not change the other keys. Every key that is loaded can be applied to every message without undefined behaviour.", "quantifier": "all key tables, identifiers and messages", "why_tests_cant": "The table comes from the user; a wrong key gives locations that look valid.", "anchors": ["src/tmc/tmc.cc: loadServiceKeyTable, Message::decrypt", "src/tmc/csv.cc: readCSV", "src/tmc/csv.hh: CSVRow"]}
{"id": "C69", "title": "Location tables are loaded as written", "statement": "For every consistent location table (names, roads, segments, points, offsets; titles in any order, any line ends, signs and zeros in front of numbers) the loaded database has the number of the table, exactly its roads and points, each with its number, names in the stated encoding, coordinates, road (its own or that of its segment), name of the road and neighbours; the latest row of a code counts, and damaged rows have no effect on the rest.", "quantifier": "all location tables, all files with their content, all text converters", "why_tests_cant": "Tables have thousands of rows of any form; a row that is read wrongly shows only when a message refers to it.", "anchors": ["src/tmc/locationdb.cc: loadLocationDatabase, readLTN", "src/tmc/csv.cc, src/tmc/csv.hh"]}
{"id": "C70", "title": "What a station sends is printed", "statement": "Whatever a channel received before: once it is synchronised and a station is received with correctable bit errors only, in any portions of bits, there is exactly one output for each group sent; from the third group on it is a line with the PI code of the station, type, traffic programme flag and programme type of the group; programme service name and RadioText sent in order are printed as sent with their last group. With hexadecimal output exactly the groups sent are printed, from the first on.", "quantifier": "all earlier calls, all stations with a PI code other than 0, all sequences of groups, all portions, all correctable error patterns below the limit of 42 in 50 blocks", "why_tests_cant": "It connects block synchronisation, error correction, confirmation of the PI code and the decoders over unbounded sequences; a test shows single recordings.", "anchors": ["src/channel.cc: processBits, processBit, processGroup", "src/block_sync.cc: BlockStream::pushBit", "src/station.cc: updateAndPrint, decodeBasics, decodeType0, decodeType2", "src/groups.cc: Group::printHex"]}
{"id": "C71", "title": "The output is valid UTF-8", "statement": "Every line printed is a JSON object in which all strings are UTF-8 encodings of Unicode texts, whatever was received; the check of the JSON library accepts exactly these, and the built-in tables consist of them.", "quantifier": "all sequences of groups, all byte strings, all tables in UTF-8", "why_tests_cant": "A wrong string replaces a whole line by an error report; whether one can arise depends on arbitrary received bytes and on the history of the texts.", "anchors": ["src/station.cc: updateAndPrint (dump of the JSON object)", "src/text/rdsstring.cc, src/text/stringutil.cc", "src/tmc/tmc.cc: Message::json", "src/station.cc: parseRadioTextPlus, decodeType15"]}
{"id": "C72", "title": "The bits of a subcarrier do not depend on how its signal is cut into chunks", "statement": "The bits that SubcarrierSet::processChunk returns for a stream, over all chunks together, are those of the symbols that the signal path of this subcarrier (mixer, filter, every 24th sample to gain control and symbol synchroniser, oscillator correction) yields for the resampled signal as a whole. No buffer is exceeded, and other subcarriers have no influence. Every sample rate that is accepted can be resampled.", "quantifier": "all signals, all divisions into chunks of up to 8192 samples, any number of subcarriers from 1 to 4, any behaviour of the DSP objects and of floating-point arithmetic", "why_tests_cant": "State is kept across chunks in seven objects per subcarrier and a sample counter; a mistake only shows for some chunk boundaries, some numbers of subcarriers, or after hours.", "anchors": ["src/dsp/subcarrier.cc: SubcarrierSet", "src/dsp/liquid_wrappers.cc: Resampler", "src/io/input.cc: MPXReader::init"]}
{"id": "C73", "title": "MPX input: every channel is decoded on its own, from its own samples", "statement": "Processing MPX input never fails. What happens in a channel is the same as feeding a channel bit by bit with the demodulated bits of its own samples, then flush. A reset only happens after 10 seconds of bits without any group and more than 5 seconds of samples after the start or the last reset. In particular, as long as a station is received with correctable errors no reset happens and its groups are printed.", "quantifier": "all recordings with 1 to 32 channels, all options, any behaviour of the DSP objects, all clocks", "why_tests_cant": "The loop interleaves channels, subcarriers, chunks, resets and timestamps; the reset condition depends on minutes of input.", "anchors": ["src/redsea.cc: processMPXInput", "src/channel.cc: processBits, getSecondsSinceCarrierLost, resetPI, flush", "src/dsp/subcarrier.cc: reset, getSecondsSinceLastReset"]}
{"id": "C74", "title": "Hexadecimal output can be read again without loss", "statement": "If the hexadecimal output of a program is given to a second program as hexadecimal input, the second program prints the same lines as the first one would have printed directly: redsea -b -x | redsea -h is the same as redsea -b.", "quantifier": "all sequences of bits on all streams, with any errors, all options without time stamps and block error rates", "why_tests_cant": "The two ways differ in everything that hexadecimal lines do not tell (offset words, groups without any block, PI codes repeated in block 3); whether this matters depends on the combination of errors over several groups and on the state of PI cache and station.", "anchors": ["src/redsea.cc: processHexInput, processASCIIBitsInput", "src/io/output.hh: printAsHex", "src/io/input.cc: readHexGroup", "src/groups.cc: Group", "src/channel.cc: processGroup", "src/groups.cc: Station::updateAndPrint"]}
{"id": "C75", "title": "The traffic service of a station among its other groups", "statement": "The TMC receiver of a station gets exactly the system information of the complete announcements of TMC and the complete groups of the types that carry TMC at that time, in order. System information prints location table, encryption, alternative frequencies, scope, service identifier, gap, country; encryption administration groups print identifiers and location table. User groups are ignored before the first system information of variant 0, and messages of an encrypted service before the first encryption administration group. Single-group messages print the members that the event list, the bits of the group, the latest encryption identifier and the latest location table give, among them the coordinates, the names of the two ends, and number and name of the road; and no other members. Other groups print nothing about TMC.", "quantifier": "all sequences of groups of a station with any groups before, between and after the TMC groups; all values of all fields; all event lists, location tables and service keys", "why_tests_cant": "What a TMC group prints depends on all announcements and TMC groups before it, through the station's table of applications and the state of the service, with arbitrary other groups in between.", "anchors": ["src/groups.cc: Station::decodeType3A, decodeODAGroup, parseTMC", "src/tmc/tmc.cc: TMCService::receiveSystemGroup, TMCService::receiveUserGroup", "src/tmc/tmc.cc: getScopeStrings"]}
{"id": "C76", "title": "Tuning information of the traffic service", "statement": "The name of the service provider is printed when it is complete, with the characters that were received last for each position. Information about other networks shows their PI codes, frequencies, service identifier, location table and scope as they were sent.", "quantifier": "all sequences of groups of a station, all PI codes, frequencies and other values", "why_tests_cant": "The name is put together from groups that may come in any order, with repetitions and other groups in between; the frequencies go through the list of alternative frequencies, whose behaviour depends on its state.", "anchors": ["src/tmc/tmc.cc: TMCService::receiveUserGroup (tuning information)", "src/util.cc: AltFreqList::insert", "src/text/rdsstring.cc: RDSString"]}
{"id": "C77", "title": "Type C groups of a station: file transfer and channel assignments", "statement": "The type C groups of a station are received in order, whatever other groups come between. A group with file data prints pipe, toggle bit, byte address and the five bytes as they were sent; groups with channel data and channel assignments print channel, application and data; file information prints version, identifier, size and whether there is a checksum, and checksums of files and chunks are printed as they were sent. If contents of a file are printed, they have the size announced last on the pipe, and each byte is from the latest segment for its address in an unbroken run of segments with the same toggle bit. If a file was announced, and its transfer begins with a change of the toggle bit, then the file is printed when its last missing segment arrives, with the others in any order.", "quantifier": "all sequences of groups of a station with any groups before, between and after the type C groups; all channels, pipes, files, sizes and values of all fields", "why_tests_cant": "What is printed for a part of a file depends on all earlier parts, assignments and file information for its pipe, in any order, with repetitions and arbitrary other groups in between.", "anchors": ["src/groups.cc: Station::decodeC", "src/rft.hh: RFTFile"]}
{"id": "C78", "title": "Members of every line, and groups of unknown applications", "statement": "A line has the members stream, rx_time, channel and raw_data if and only if the options ask for them (channel: if there are several), with the data stream, the time of reception, the number of the channel and the blocks in hexadecimal with dashes for missing blocks. It has the error rate if and only if the group has one. It has the PI code of the station unless the group is of type C, and with RBDS the callsign of that PI code, marked as uncertain for codes 1xxx. A type C group is printed as group C without traffic programme flag and programme type. A group announced for an application without a decoder prints the application, its name and its 37 bits; a group that is not announced and has no use of its own prints its 37 bits only; neither changes the state of the station, except whether the last group had a PI code.", "quantifier": "all options, channels, PI codes, and sequences of groups of a station, with any blocks missing", "why_tests_cant": "The members come from state that must stay the same over all earlier groups, and must not be changed by anything that the decoder of any group adds to the line.", "anchors": ["src/groups.cc: Station::updateAndPrint", "src/groups.cc: Station::decodeBasics", "src/groups.cc: Station::decodeODAGroup", "src/groups.cc: Group::printHex"]}
{"id": "C79", "title": "Feed-through echoes the input completely", "statement": "With feed-through, all samples that are read from sound input are written to the standard output, in order and nothing else, for all numbers of channels that the options allow. For bits, hexadecimal groups and TEF6686 lines (for which the usage text does not promise it to work) the echo is the whole input followed by one more byte: FF for bits, a line break for the others.", "quantifier": "all inputs of all lengths, all numbers of channels from 1 to 32", "why_tests_cant": "The echo is written in pieces by loops that stop at the end of the input in different places: after a complete chunk, in the middle of one, after a line with or without line break. Any piece could be lost or doubled.", "anchors": ["src/io/input.cc: MPXReader::fillBuffer, AsciiBitReader::readBit, readHexGroup, readTEFGroup", "src/redsea.cc: processMPXInput, processASCIIBitsInput, processHexInput, processTEFInput"]}
{"id": "C80", "title": "A session of the TEF6686 tuner is decoded group by group", "statement": "From a text made of PI lines, group lines and other lines, the decoder gets exactly the groups of the group lines in order. Each has the PI code of the latest PI line since the group before, or none, and the digits of its blocks; a block counts as received if neither it nor a block before it has errors. After the last line one more group comes without blocks 2 to 4. The program never fails, for any text.", "quantifier": "all sequences of lines, all PI codes, blocks and error bytes; for the last claim all texts", "why_tests_cant": "A PI code is kept for the next group only, over any number of lines in between; whether it leaks into later groups depends on the whole sequence.", "anchors": ["src/io/input.cc: readTEFGroup", "src/redsea.cc: processTEFInput"]}
{"id": "C81", "title": "The time of reception is written as the format asks for", "statement": "With the option -t, the time of reception is written as the given format asks for: ordinary characters stand for themselves, the conversions of strftime get the second in which the time lies, and %f gives the two digits of the hundredths of that second. Violated by a second %f, by %%f, by texts that are empty or longer than 63 bytes, and by times before 1970.", "quantifier": "all formats made of characters, conversions and %f; all times; all behaviours of strftime for a single conversion", "why_tests_cant": "Formats are any text of the user, and times have nanosecond resolution. The replacement of %f and the scan of strftime are two passes over the same text that can interfere.", "anchors": ["src/util.cc: getTimePointString", "src/groups.cc: Station::updateAndPrint"]}
{"id": "C82", "title": "Country names follow the standard table", "statement": "For every extended country code and every country digit, the printed country is the one in the list of the standard, and \"--\" if there is none. Violated in one case: code D1 with digit F is Nigeria, but Bulgaria is printed.", "quantifier": "all values of the extended country code, all country digits", "why_tests_cant": "There are 16 x 256 combinations, of which tests look at few; one wrong letter is one wrong country.", "anchors": ["src/tables.cc: getCountryString"]}
{"id": "C83", "title": "The whole program: from command line and input to output", "statement": "For text input, whatever it is, the program ends successfully, provided that the encodings of the location tables are known and the keys usable. Groups are printed on the standard output; with feed-through on the standard error, while the standard output has the echo of the whole input and nothing else. Bits of a station in the input, with errors that can be corrected, give its lines in the output, e.g. the programme service name. For sound, the lines of all channels are printed. Violated by encodings that iconv does not know and by sample rates above 34.2 MHz (both terminate the program), and by hexadecimal output with a location table, which begins with a JSON line.", "quantifier": "all command lines, all inputs, all tables and key files within the conditions, all clocks, all behaviours of libraries", "why_tests_cant": "The claim spans everything between the command line and the output; tests run a few recordings with a few options.", "anchors": ["src/redsea.cc: main, processMPXInput, processASCIIBitsInput, processHexInput, processTEFInput", "src/tmc/tmc.cc: TMCService::TMCService"]}
{"id": "C84", "title": "Traffic messages in the words of the event list and the location tables", "statement": "A traffic message of one group about an event of the list in the program prints the text of that row with a capital letter and a full stop, and its update class, direction and urgency; an event that is not in the list gets no text and nothing of another event. If the program was started with location tables in files and the station has announced the number of one of them, the message prints what that table says about its location: coordinates of the points from there on in the direction of the extent, the names of the first and the last point, number and name of the road; and nothing about the place if the table does not have the location or no table has the number. If several tables have the same number, the last one counts.", "quantifier": "all rows of the event list, all consistent location tables in files, all sequences of groups before the message, all messages of one group, all service keys", "why_tests_cant": "The text of a message comes from five places: the group, the announcements before it, the event list, the files of the table, and the order of the directories. Tests use a stubbed part of them.", "anchors": ["src/tmc/tmc.cc: loadEventData, decodeLocation, TMCService::TMCService, TMCService::receiveUserGroup, Message::json", "src/tmc/locationdb.cc: loadLocationDatabase, readLTN"]}
{"id": "C85", "title": "JSON output is newline-delimited JSON", "statement": "In JSON output, everything the program prints - groups, reports of errors and the lines about location tables - is newline-delimited JSON: every item is one line, every line is a JSON text (RFC 8259) that is an object, in valid UTF-8 and without control characters, in which no object has two members of the same name, and reading it gives back exactly the members and values that were put into the line. Text received from the air can not break this, whatever bytes it has.", "quantifier": "all inputs (bits, hexadecimal, TEF6686, sound of any channels), all options with JSON output, all location tables and clocks", "why_tests_cant": "Strings come from the air, from files, from iconv and from the clock, in any combination; members are put together from up to three decoders. Tests see single lines with harmless text.", "anchors": ["src/groups.cc: Station::updateAndPrint", "src/io/output.hh", "src/tmc/locationdb.cc: operator<<"]}
{"id": "C86", "title": "The line about a location table", "statement": "After a location table was loaded, the program prints a line of JSON with the number of the table and the numbers of its points, roads and names. Points, roads and names are counted as in the files, each once.", "quantifier": "all consistent location tables in files, all encodings", "why_tests_cant": "Counting depends on all rows of several files, among them rows with missing columns; tests use one small table.", "anchors": ["src/tmc/locationdb.cc: loadLocationDatabase, operator<<", "src/tmc/tmc.cc: TMCService::TMCService"]}
{"id": "C87", "title": "Files are read line by line", "statement": "The key file and the files of location tables are read line by line without losing or adding anything: for every text the lines are those between its line feeds, and an unfinished last line counts. A location table written into the files of a directory, with line ends LF or CRLF and with or without one at the end, is found there under the names of the files, with its number; a file that does not exist is as if it were empty.", "quantifier": "all contents of files, all directories, all location tables and key tables", "why_tests_cant": "Tests read a single small table with one kind of line ends.", "anchors": ["src/tmc/csv.cc: readCSV, readCSVWithTitles", "src/tmc/locationdb.cc: loadLocationDatabase, readLTN", "src/tmc/tmc.cc: loadServiceKeyTable"]}
{"id": "C88", "title": "Every command line option has its effect", "statement": "For every command line made of known options, in any order and number: each flag is set exactly if its option is given, of several choices of an input, output, file name, time format, rate or number of channels the last one counts, all location tables are kept in their order, and the default rate is used for raw MPX when none is given. A command line is accepted exactly if all arguments are acceptable and the choices do not contradict each other. If usage or version are asked for or there are extra arguments, only these texts are printed and the exit code is a failure exactly for extra arguments; a rejected command line prints only an error and fails.", "quantifier": "all lists of options and arguments, all behaviours of strtof and of float multiplication", "why_tests_cant": "Tests try a few command lines; the options can be combined, repeated and reordered without bound.", "anchors": ["src/options.cc: getOptions", "src/redsea.cc: main"]}
{"id": "C89", "title": "Options for the output only add members", "statement": "When the same input is received with other options for raw data, receive times, block error rates, stream and channel numbers (and echo), the same lines are printed, one for one and in the same order, with the same members in the same order except for those that the options are about. Options that are not about the output make no difference at all. Without -p no line has a member for partial data; with -p every line has the members that it has without, or (a violation) is replaced by an error report.", "quantifier": "all sequences of calls of a channel (bits, groups, flush, reset), all pairs of options, all library behaviours", "why_tests_cant": "Tests compare single lines for single options; that no combination of options can influence what is decoded from any input is a statement about two runs of unbounded length.", "anchors": ["src/groups.cc: updateAndPrint", "src/groups.cc: decodeType0", "src/groups.cc: decodeType2", "src/groups.cc: decodeType15", "src/channel.cc: processGroup", "src/options.cc: getOptions"]}
{"id": "C90", "title": "JSON output conforms to a fixed schema", "statement": "Every line of JSON output is the report of an exception ({\"debug\": text}) or an object that conforms to a fixed schema: every member, however deep, has a name that the schema knows at its place, and a value of the kind given there: texts, flags, whole numbers within the range of their bit field, frequencies between 153 and 107900 kHz, codes of exactly four hexadecimal digits, choices from a fixed list, arrays and objects of such values. No value is null.", "quantifier": "all sequences of calls of a channel, all options, all inputs of the program, all location tables and event lists", "why_tests_cant": "Tests look at single members of single lines; that no group sequence can ever produce another member, another type, or a number out of range is a statement about all inputs and states.", "anchors": ["src/groups.cc: updateAndPrint", "src/groups.cc: decodeType0 to decodeType15B", "src/groups.cc: decodeC", "src/groups.cc: parseRadioTextPlus", "src/groups.cc: parseDAB", "src/tmc/tmc.cc: receiveSystemGroup", "src/tmc/tmc.cc: receiveUserGroup", "src/tmc/tmc.cc: Message::json", "src/tmc/tmc.cc: decodeLocation", "src/freq.cc: AltFreqList::insert"]}
{"id": "C91", "title": "The carriers of the data streams keep exact frequency ratios", "statement": "NCO::step derives the phases of the four carriers (57, 66.5, 71.25 and 76 kHz) from the phase of one oscillator. In exact arithmetic, while the oscillator is not reset and turns less than half a turn per sample, the carrier of stream i has turned by exactly 1, 7/6, 5/4 or 4/3 times the angle of the oscillator, up to whole turns, however long the program runs and however often the reported phase wraps. The four angles stay within half a turn of zero for ever. The carrier of stream 0 stands at the phase of the oscillator after every step, also after resets.", "quantifier": "all sequences of steps and resets, all reported phases, all numbers of turns", "why_tests_cant": "A wrong wrap shows only at some phases and accumulates over millions of samples; tests run a few recordings and look at decoded groups.", "anchors": ["src/dsp/liquid_wrappers.cc: unwrap", "src/dsp/liquid_wrappers.cc: NCO::step", "src/dsp/liquid_wrappers.cc: NCO::mixDown", "src/dsp/liquid_wrappers.cc: NCO::reset"]}
{"id": "C92", "title": "Error detection has the power that the standard promises", "statement": "Without error correction no block is stored that has one or two wrong bits, or wrong bits only within ten consecutive bits, and of the bursts of eleven bits at a given place only one is not detected. Of the 2^26 possible words, exactly 2^16 are stored as a block with a given offset without correction and exactly 52 * 2^16 with correction; exactly 5 * 2^16 are taken for a sync pulse.", "quantifier": "all data words, all offset words, all error patterns, all 26-bit words in the register", "why_tests_cant": "There are 2^26 words and 2^42 pairs of data and error patterns; tests try a handful, and a weak spot shows only in wrong data on a noisy channel.", "anchors": ["src/block_sync.cc: calculateSyndrome", "src/block_sync.cc: getOffsetForSyndrome", "src/block_sync.cc: correctBurstErrors", "src/block_sync.cc: BlockStream::findBlockInInputRegister"]}
{"id": "C93", "title": "A service depends on its own groups only", "statement": "Programme service name and frequencies, programme type name, information about other networks, file transfer, and the group of RadioText and open data applications do not disturb each other: leaving out all groups of some services before decoding gives the same lines as leaving out their lines after decoding. So whatever is sent for other services, in whatever order, the lines for a service are the same.", "quantifier": "all stations in any state, all sets of services, all sequences of groups with PI code (those that are left out may be without), all options", "why_tests_cant": "A decoder that changes the buffer of another service only does harm for certain interleavings of groups; there are infinitely many of them.", "anchors": ["src/groups.cc: Station::updateAndPrint", "src/groups.cc: Station::decodeType0 to decodeC", "src/groups.hh: class Station"]}
{"id": "C94", "title": "Reception recovers from any state", "statement": "Whatever the decoder received before, be it noise or another station, synchronised or not, in step or not: after 19 groups of a clean transmission (1.7 seconds) it is in step with the transmission, and from then on it delivers every group, complete and without errors.", "quantifier": "all pasts of any length below 2^32 - 1976 bits, all clean transmissions whose first 19 groups do not imitate block structure by accident, both settings of error correction", "why_tests_cant": "The state left behind by noise can be any of astronomically many, including false synchronisation; a test starts from a few of them.", "anchors": ["src/block_sync.cc: BlockStream::pushBit", "src/block_sync.cc: BlockStream::acquireSync", "src/block_sync.cc: SyncPulseBuffer::isSequenceFound", "src/block_sync.cc: BlockStream::findBlockInInputRegister"]}
{"id": "C95", "title": "The memory for a station is bounded", "statement": "However long a channel is received and whatever is sent, the buffers of its station keep within fixed limits: every text keeps its length, a traffic message never accumulates more than five groups, the sixteen files never grow beyond 32768 segments and 512 checksums, and no more than one name and one frequency list is kept for another network.", "quantifier": "all sequences of channel events (bits, groups, resets) of any length, all options", "why_tests_cant": "A leak shows only after days or with certain contents; a test run ends before.", "anchors": ["src/groups.hh: class Station", "src/rft.hh: class RFTFile", "src/tmc/tmc.cc: TMCService::receiveUserGroup", "src/text/rdsstring.cc: RDSString::set", "src/groups.cc: Station::decodeType2"]}
{"id": "C96", "title": "Output does not depend on later input", "statement": "Whatever follows in the input, the lines printed so far stay the same. For two text inputs of which one continues the other, the lines printed for the shorter one are the first lines printed for the longer one, except for at most the last line, which may be about something that was cut off. For hexadecimal input cut after a newline there is no exception. For sound cut after whole chunks the only exceptions are incomplete groups of the streams 1 to 3.", "quantifier": "all inputs, all continuations, all kinds of input, all options", "why_tests_cant": "A test compares a few recordings with a few truncations; a decoder that looks ahead or revises its output would have to be caught at one of infinitely many places.", "anchors": ["src/redsea.cc: processMPXInput", "src/redsea.cc: processASCIIBitsInput", "src/redsea.cc: processHexInput", "src/redsea.cc: processTEFInput", "src/io/input.cc: readHexGroup", "src/io/input.cc: readTEFGroup", "src/channel.cc: Channel::flush"]}
{"id": "C97", "title": "The clock is seen only in receive times", "statement": "Without -t, nothing that the program prints, and not its exit status, depends on the clock, on the arrival times computed for bits, or on how strftime formats times (locale, time zone). With -t and JSON output, only the member rx_time depends on them: on machines with different clocks the same lines are printed, one for one, and they have the same other members in the same order.", "quantifier": "all inputs of all kinds, all options, all clock readings (also ones that jump), all delays, all formats", "why_tests_cant": "Tests run at the time they run and compare output with a constant; that no reading of the clock, whenever it happens, reaches the decoder or the choice of what to print takes a proof about all pairs of runs.", "anchors": ["src/channel.cc: Channel::processGroup", "src/channel.cc: Channel::processBits", "src/channel.cc: Channel::flush", "src/groups.cc: Station::updateAndPrint", "src/io/output.hh: printAsHex", "src/redsea.cc: processMPXInput", "src/util.cc: getTimePointString"]}
{"id": "C98", "title": "What -u changes", "statement": "Adding -u (RBDS) to a command line, at any place, changes nothing about whether the program runs, what it decodes or how many lines it prints. Each line is the same, member by member and in the same order, except that the programme type of the station and of another network has its North American name for the same code, and that directly after \"pi\" comes the callsign that belongs to the PI code, if there is one (\"callsign_uncertain\" for codes that begin with 1). Hexadecimal output, echoed input, usage, version and errors are the same.", "quantifier": "all command lines without -u and all places for it, all inputs of all kinds", "why_tests_cant": "Tests look at a few lines with -u; that the decoder state never depends on it and that no other member of any line differs is a statement about all pairs of runs.", "anchors": ["src/groups.cc: Station::updateAndPrint", "src/groups.cc: Station::decodeBasics", "src/groups.cc: Station::decodeType14", "src/tables.cc: getPTYNameStringRBDS", "src/tables.cc: getCallsignFromPI", "src/options.cc: getOptions"]}
{"id": "C99", "title": "Hexadecimal output shows the received blocks and nothing else", "statement": "With -x, what is printed for a given input depends, apart from lines about location tables, only on whether errors are corrected (-F) and on the number of streams. The same input on two machines with different clocks, files, tables and formats of times, and with command lines that differ in -t, -R, -E, -p, -u, -l, -e in any way, leads to the same lines one for one: data stream number and four blocks, each of four hexadecimal digits or dashes, are the same, and after them comes the formatted time if -t is given and nothing otherwise. Without -t and -l the outputs are identical.", "quantifier": "all inputs of all kinds, all pairs of command lines with -x and the same kind of input, all pairs of machines", "why_tests_cant": "Tests compare hexadecimal output of single runs with expected text; that no option, file, clock or decoder state ever leaks into it is a statement about all pairs of runs.", "anchors": ["src/channel.cc: Channel::processGroup", "src/io/output.hh: printAsHex", "src/groups.cc: Group::printHex", "src/redsea.cc: processMPXInput"]}
{"id": "C100", "title": "Data streams are decoded on their own", "statement": "The four data streams (RDS and the three upper streams of RDS2) of a channel do not influence each other in synchronisation, error correction and grouping of blocks: whatever bits are handed over for the streams, in whatever portions, order and interleaving, and with whatever resets of the PI cache between, the groups of each stream are exactly those that one block decoder finds in the bits of this stream alone, in the same order; at the end, what was received of another group is added for the streams 1 to 3. For sound, the bits are those demodulated for this stream from the samples of this channel.", "quantifier": "all sequences of calls with bits, all options, all recordings with 1 to 32 channels", "why_tests_cant": "A confusion of streams shows only for certain interleavings of streams and phases of groups; there are infinitely many of them.", "anchors": ["src/channel.cc: Channel::processBits, processBit, flush", "src/channel.hh: block_streams_", "src/redsea.cc: processMPXInput"]}
{"id": "C101", "title": "Upper data streams do not change what is printed for RDS", "statement": "Whatever is received on the upper data streams of RDS2, the lines printed for the groups of stream 0 are exactly those printed when nothing is received there, apart from receive times (-t) and block error rates (-E), which are shared between the streams. In particular, of the same recording and without -t and -E, redsea run with --streams prints for stream 0 the lines that it prints without --streams, in the same order, apart from the member \"stream\".", "quantifier": "all sequences of calls of a channel, all recordings, all options without hexadecimal output", "why_tests_cant": "State is shared between the streams (the station with its open data applications, file transfer and PI); an influence would show only for certain contents and interleavings of upper streams, of which there are infinitely many.", "anchors": ["src/channel.cc: Channel::processGroup", "src/groups.cc: Station::updateAndPrint, decodeC", "src/redsea.cc: processMPXInput"]}
{"id": "C102", "title": "Traffic messages of several groups in the words of the event list and the location tables", "statement": "A traffic message of two to five groups about events of the list in the program, without quantifiers, prints the texts of the rows of its events in the order in which they were sent, then the texts of its supplementary information, each with a capital letter, joined to sentences; update class, direction and urgency are those of the row of the first event, the direction changed to the other kind for an odd number of control codes for this, the urgency turned as many steps as asked for. A message about one event with a quantifier prints the second text of its row, with the value of the quantifier in the standard in place of the mark. If the station has announced the number of a location table that the program has loaded from files, the message prints what this table says about the location, as for a message of one group, along the enlarged extent.", "quantifier": "all rows of the event list and of the supplementary information, all lists of fields that fit a message of two to five groups, all consistent location tables in files, all groups before the message and other groups between its parts, all service keys", "why_tests_cant": "The text comes from all groups of the message, the announcements before it, two lists in the program and the files of the table; the combinations are innumerable.", "anchors": ["src/tmc/tmc.cc: loadEventData, Message::decodeMulti, Message::json, getFreeformFields, decodeLocation", "src/tmc/locationdb.cc: loadLocationDatabase"]}
{"id": "C103", "title": "The number of a channel shows in the member \"channel\" only", "statement": "Two channels in which the same is received print the same lines, one for one, apart from the member \"channel\": whatever the numbers of the channels, and whatever the number of channels of the recording. In hex output and with one channel, where the number is not printed, the lines are equal. So two channels of a recording that have the same samples print the same lines apart from the number, with the whole chunks of the recording and with the rest at its end.", "quantifier": "all sequences of calls on a channel, all options, all channel numbers, all recordings with up to 32 channels of which two have the same samples, all filters and arithmetic of the receiver", "why_tests_cant": "The number is handed from the constructor of the channel to each station that is made when the PI code changes; that nothing else depends on it concerns all decoders and all states.", "anchors": ["src/channel.cc: Channel::Channel, processGroup", "src/groups.cc: Station::Station, updateAndPrint", "src/redsea.cc: processMPXInput", "src/io/input.cc: MPXReader::readChunk"]}
{"id": "C104", "title": "Location tables change the place of traffic messages only", "statement": "Whatever is received, a program with location tables (-l) prints the same lines as a program with other tables or none, one for one, apart from the five members of a traffic message that describe its place: coordinates, span_from, span_to, road_number, road_name. Without tables no line has any of these members. The tables do not change the state of the decoder. This holds for calls of a channel, for sound, and for two command lines that differ in -l.", "quantifier": "all sequences of calls of a channel, all recordings, all inputs of the program; all pairs of sets of location tables whose names are UTF-8; all options with JSON output (any output for calls and sound)", "why_tests_cant": "The claim compares two runs for every input and every pair of tables; tests compare a few recordings with one table.", "anchors": ["src/tmc/tmc.cc:506-632", "src/tmc/tmc.cc:451-454", "src/groups.cc:249-369"]}
{"id": "C105", "title": "Keys only add the location of encrypted traffic messages", "statement": "Whatever is received, a program with a key file prints the lines of the same program without the key file, one for one; each line is the same, or it is the line of a traffic message to which the location (and, with a location table, coordinates, span_from, span_to, road_number, road_name) was added. A location that is known without keys does not change, and keys do not change the state of the decoder. This holds for calls of a channel, for sound, and for the program.", "quantifier": "all sequences of calls of a channel, all recordings, all inputs of the program; all keys that the shifts of the decryption allow; all location tables whose names are UTF-8; all options", "why_tests_cant": "The claim compares two runs for every input and every set of keys; tests decrypt a few messages with one key.", "anchors": ["src/tmc/tmc.cc:354-377", "src/tmc/tmc.cc:596-632", "src/tmc/tmc.cc:878-885"]}
