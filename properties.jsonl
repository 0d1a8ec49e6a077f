{"id": "C01", "title": "Satellite numbering is a bijection", "statement": "Within each constellation's slot range the internal satellite number determines (system, PRN) and back: converting a (system, PRN) pair to a number and back returns the same pair, two different pairs never share a number, and every number 1..233 is the number of exactly one pair.", "quantifier": "all constellations and all PRNs in their slot ranges; all satellite numbers; also all PRNs up to the limits the library itself declares", "why_tests_cant": "A test samples a few satellites; an overlap between two constellations' slots only shows at the edge of a range nobody sampled.", "anchors": ["src/cssrlib/gnss.py:prn2sat", "src/cssrlib/gnss.py:sat2prn", "src/cssrlib/gnss.py:uGNSS"]}
{"id": "C02", "title": "Satellite identifier strings round-trip", "statement": "For every valid satellite number the three-character identifier (e.g. 'G05', 'J01', 'S22') decodes back to the same satellite number, and two satellites never have the same identifier.", "quantifier": "all satellite numbers of all constellations", "why_tests_cant": "Identifier offsets (QZSS -192, SBAS -100) and two-digit formatting interact differently per constellation; tests cover a handful of ids.", "anchors": ["src/cssrlib/gnss.py:sat2id", "src/cssrlib/gnss.py:id2sat", "src/cssrlib/gnss.py:char2sys", "src/cssrlib/gnss.py:sys2char"]}
{"id": "C03", "title": "Calendar time conversion round-trips", "statement": "For every calendar date from 1970-01-01 to 2099-12-31 and every time of day, converting to the internal time and back returns the same date and time, and the conversion agrees with an independent day-count definition of the Gregorian calendar. The day of year is the number of the day in that calendar, counted from 1, plus the part of the day passed.", "quantifier": "every date in the supported range (47482 days) and every second of the day, including fractional seconds", "why_tests_cant": "Leap-year and month-table errors show on isolated days; a test suite checks a few epochs.", "anchors": ["src/cssrlib/gnss.py:epoch2time", "src/cssrlib/gnss.py:time2epoch"]}
{"id": "C04", "title": "Time addition and difference are inverse and normalised", "statement": "Adding s seconds to an epoch and taking the difference with the original gives exactly s; the result is always normalised (integer seconds plus a fraction in [0,1)); additions compose and commute.", "quantifier": "every epoch, every (also negative and fractional) offset, any sequence of additions", "why_tests_cant": "Normalisation errors appear only for particular fractional parts and signs; sequences of additions are unbounded.", "anchors": ["src/cssrlib/gnss.py:timeadd", "src/cssrlib/gnss.py:timediff"]}
{"id": "C05", "title": "GNSS week/TOW conversions round-trip", "statement": "For GPS, Galileo and BeiDou time, converting (week, tow) to the internal time and back returns the same week and tow for every non-negative week and 0 <= tow < 604800; the returned tow is in [0,604800) for every epoch at or after the system's origin.", "quantifier": "all three time systems, all weeks, all times of week including fractional seconds", "why_tests_cant": "Weeks and fractional tows are unbounded; truncation-toward-zero vs floor only differ before the origin.", "anchors": ["src/cssrlib/gnss.py:gpst2time", "src/cssrlib/gnss.py:time2gpst", "src/cssrlib/gnss.py:gst2time", "src/cssrlib/gnss.py:time2gst", "src/cssrlib/gnss.py:bdt2time", "src/cssrlib/gnss.py:time2bdt"]}
{"id": "C06", "title": "GPS time to UTC and back", "statement": "For every GPS-time epoch, converting to UTC and back to GPS time returns the original epoch, except inside the one-second windows of the inserted leap seconds; the offset used is the one of the leap-second table interval containing the epoch.", "quantifier": "every epoch from the start of the leap table onwards, with fractional seconds", "why_tests_cant": "Failures are confined to one-second windows at the table entries.", "anchors": ["src/cssrlib/gnss.py:gpst2utc", "src/cssrlib/gnss.py:utc2gpst", "src/cssrlib/gnss.py:leaps_"]}
{"id": "C07", "title": "RINEX signal codes round-trip", "statement": "Parsing the text form of a signal and printing it again gives the same text, and the band and attribute conversions never change the constellation or type.", "quantifier": "every constellation, observation type, band and tracking attribute the library accepts", "why_tests_cant": "The set of accepted codes is the product of several tables; tests use a few codes and miss attribute-specific branches.", "anchors": ["src/cssrlib/gnss.py:rSigRnx.str2sig", "src/cssrlib/gnss.py:rSigRnx.str", "src/cssrlib/gnss.py:rSigRnx.toAtt", "src/cssrlib/gnss.py:rSigRnx.toTyp"]}
{"id": "C08", "title": "Bit-buffer copy copies exactly the requested bits", "statement": "Copying a bit range from one buffer to another writes exactly the requested source bits at the requested destination position and leaves every other destination bit unchanged.", "quantifier": "every source/destination offset, every length, every buffer content", "why_tests_cant": "The copy is done in 32-bit words with a remainder; errors show only for specific alignments and lengths.", "anchors": ["src/cssrlib/gnss.py:copy_buff"]}
{"id": "C09", "title": "Kalman measurement update leaves inactive states untouched", "statement": "The state/covariance update restricted to states with positive variance never changes the value, the variance or the cross-covariances of a state whose variance is not positive, and writes the active block at the right positions. If the covariance has no negative variance in any direction and the measurement covariance is positive, the update never fails, equals the textbook update of the full state with gain P H\u1d40 (H P H\u1d40 + R)\u207b\u00b9, and leaves a covariance that has no negative variance in any direction.", "quantifier": "all state dimensions, all covariance matrices, all observation matrices", "why_tests_cant": "Index-subset write-back errors depend on the pattern of active states; there are exponentially many patterns.", "anchors": ["src/cssrlib/gnss.py:kfupdate"]}
{"id": "C10", "title": "Compact SSR mask encode/decode round-trip", "statement": "Decoding an encoded satellite/signal mask returns exactly the encoded set of indices (sorted, without duplicates) for every mask width, and encoding a decoded mask returns the original mask.", "quantifier": "every mask width and every subset of positions", "why_tests_cant": "There are 2^40 satellite masks; tests use one or two.", "anchors": ["src/cssrlib/cssrlib.py:cssr.decode_mask", "src/cssrlib/cssrlib.py:cssre.encode_mask"]}
{"id": "C11", "title": "Compact SSR mask message gives a consistent satellite/signal list", "statement": "After a mask message every satellite position the library has a number for is listed as a satellite of the constellation announced for it, the per-satellite signal list has one entry per set bit of that satellite's cell mask (or of the signal mask when no cell mask is sent), the totals agree, the previous list is kept exactly when the mask issue number changes, and the reader advances by exactly the message's bit length.", "quantifier": "every mask message content, with any number of constellations and any cell masks; any decoder history", "why_tests_cant": "The list lengths are data dependent and later messages index into them; an off-by-one desynchronises only for some masks.", "anchors": ["src/cssrlib/cssrlib.py:cssr.decode_cssr_mask"]}
{"id": "C12", "title": "Corrections from another mask issue are never applied", "statement": "A URA, STEC, gridded, combined or atmospheric correction message whose issue-of-data does not match the active mask leaves all stored corrections unchanged and is reported as rejected.", "quantifier": "every decoder state, every message content", "why_tests_cant": "The mismatch can occur in any decoder state and for every message type.", "anchors": ["src/cssrlib/cssrlib.py:cssr.decode_cssr_ura", "src/cssrlib/cssrlib.py:cssr.decode_cssr_stec_coeff", "src/cssrlib/cssrlib.py:cssr.decode_cssr_grid", "src/cssrlib/cssrlib.py:cssr.decode_cssr_comb", "src/cssrlib/cssrlib.py:cssr.decode_cssr_atmos"]}
{"id": "C13", "title": "Undefined correction values are never mistaken for numbers", "statement": "A signed correction field of n bits decodes to 'not available' exactly for the reserved pattern and otherwise to the two's-complement value times its scale; re-encoding a decoded field gives the same bits, and out-of-range values never silently wrap.", "quantifier": "every field width, every bit pattern, every scale", "why_tests_cant": "The reserved pattern is one of 2^n.", "anchors": ["src/cssrlib/cssrlib.py:cssr.sval", "src/cssrlib/rtcm.py:rtcme.ival", "src/cssrlib/cssr_has.py:cssr_has.sval", "src/cssrlib/sbas.py:sbasDec.sval"]}
{"id": "C14", "title": "CLAS L6 frame assembly", "statement": "A completed L6 frame handed to the decoder is the concatenation, in transmission order, of the five consecutive sub-frames of one facility starting with a start-indicated sub-frame; a facility change or missing start never yields a completed frame built from mixed facilities.", "quantifier": "every sequence of received L6 messages, with arbitrary losses, repeats and facility changes", "why_tests_cant": "Loss and facility-change patterns are unbounded sequences.", "anchors": ["src/cssrlib/cssrlib.py:cssr.decode_l6msg"]}
{"id": "C15", "title": "Readiness check reflects received correction types", "statement": "The status check reports ready exactly when every required global correction type has been received and every required local type of the chosen network has been received; while no network has been chosen it never reports ready.", "quantifier": "every combination of received message types, network on/off, local phase bias required or not", "why_tests_cant": "Bit-mask precedence errors pass for the combinations a test happens to use.", "anchors": ["src/cssrlib/cssrlib.py:cssr.chk_stat"]}
{"id": "C16", "title": "Galileo HAS page collection", "statement": "A HAS message is decoded only from pages carrying one message identifier, with at least as many distinct page numbers as the size announced by the page that started the collection; the stored pages are exactly the received ones; a message that has been decoded and is still remembered (the last ten) is not decoded again, and a collection that stalls is dropped within twice its size in epochs so that later messages can be collected.", "quantifier": "every sequence of received pages: any order, duplicates, interleaved messages, losses, dummy pages", "why_tests_cant": "Page arrival orders and interleavings are unbounded.", "anchors": ["src/cssrlib/cssr_has.py:cnav_msg.decode_cnav"]}
{"id": "C17", "title": "BeiDou PPP-B2b slot numbering", "statement": "Every satellite slot 1..174 of the PPP-B2b mask is mapped to the constellation owning that slot range with the PRN counted from the start of the range, different slots give different (system, PRN) pairs, reserved slots map to no constellation, and the satellite list built from a mask is exactly the list of the satellites of its set slots in slot order. The internal satellite number of a slot identifies exactly that satellite, except for the eleven slots whose PRN exceeds the library's numbering (GPS 33..37, Galileo 37, GLONASS 33..37), which are taken for satellites of another constellation.", "quantifier": "every slot number a 9-bit field can carry and every content of the 174-bit mask", "why_tests_cant": "Range edges overflow into the next constellation for single slots.", "anchors": ["src/cssrlib/cssr_bds.py:cssr_bds.slot2prn", "src/cssrlib/gnss.py:prn2sat"]}
{"id": "C18", "title": "PPP-B2b clock/orbit consistency", "statement": "An orbit correction is combined only with a clock correction of the same satellite carrying the same issue number, namely the last one received under that number since the last change of mask; when a clock correction with a new issue number arrives, the value it replaces is still what an orbit correction carrying the old number is combined with; if neither number matches the satellite is not corrected. (Where the clock record needed for the comparison has not been received the lookup raises KeyError; combined messages of type 6 are read 8 bits early and of type 7 raise.)", "quantifier": "every sequence of messages of all types, of any length and content", "why_tests_cant": "Histories of issue numbers are unbounded and wrap around.", "anchors": ["src/cssrlib/cssr_bds.py:cssr_bds.decode_cssr_clk", "src/cssrlib/ephemeris.py:satposs"]}
{"id": "C19", "title": "SINCA run-length message expansion", "statement": "Compressed SISNeT text expands to exactly the original text however its runs were written (plain, one-digit or two-digit repeat escapes, any repeat counts they can express), a whole message line decodes to its week/time of week and exactly the original bytes, and every text has a compressed form that expands back to it. (A text that begins with a zero repeat escape makes the decoder loop for ever; a two-character count is also accepted with a sign or white space around a single digit, everything else raises.)", "quantifier": "every text and byte string of any length, every way of cutting it into runs, every repeat count 0..255", "why_tests_cant": "Run lengths at digit boundaries (15/16, 255) and adjacent runs are not enumerable by tests.", "anchors": ["src/cssrlib/cssr_pvs.py:decode_sinca_line"]}
{"id": "C20", "title": "MADOCA-PPP ionosphere network index", "statement": "Every (region, area) pair defined by the service is assigned its own local-correction slot, all of slots 1..38 are used, the slot is allocated for every value the region and area fields can carry, a correction message changes only the slot of the pair it names, and that slot then holds exactly the satellites of the message in order with the coefficients and quality of their records, scaled as the interface document says, its reference time and issue. The area lookup returns the slot of an area containing the user, or -1 exactly when none does. (Undefined area numbers can hit the slot of a defined pair.)", "quantifier": "all regions and area numbers; every decoder state and message; every area table and position", "why_tests_cant": "Collisions only appear for area numbers at the end of a region's range.", "anchors": ["src/cssrlib/cssr_mdc.py:cssr_mdc.get_inet"]}
{"id": "C21", "title": "OSNMA: only verified navigation data is reported authentic", "statement": "The decoder reports a satellite's navigation data of one issue as authentic only if some earlier processed sub-frame contained a tag for exactly that satellite and issue which equals the MAC of the prescribed message (satellites, sub-frame time, tag counter, service status, and the words 1..5 stored for that satellite) under the key in use, at least two bytes of tag being compared; that key had been linked by the hash, in that or an earlier call, to the root key held or, once a chain is established, to the key the same satellite sent one sub-frame before; and the signature of a root key message had been verified with a public key that was preset, loaded by the user or proved by the Merkle tree. Failed steps change no count, and counts never decrease. (Not guaranteed: once the chain is established the root key is no longer consulted, and a later root key message replaces the verified root key without a new signature check.)", "quantifier": "every sequence of calls (pages of any satellites, navigation words, key loading), any key-chain length, any behaviour of the hash/MAC/signature primitives", "why_tests_cant": "An adversary chooses the message history; tests use recorded genuine data only.", "anchors": ["src/cssrlib/osnma.py:osnma.verify_navmsg", "src/cssrlib/osnma.py:osnma.verify_key_chain", "src/cssrlib/osnma.py:osnma.verify_root_key", "src/cssrlib/osnma.py:osnma.save_auth_nav", "src/cssrlib/osnma.py:osnma.chk_nav"]}
{"id": "C22", "title": "OSNMA DSM assembly", "statement": "A digital signature message is handed to verification exactly when, among the blocks of its identifier received since the assembly of that identifier last started over (a decoded message or a change of chain), block 0 is present and the block numbers present are exactly those it announces; the message verified is the concatenation of the latest copies of those blocks in block-number order, whatever the arrival order or repetition. Storing a block never raises. (A block with a number beyond the announced count therefore blocks the message until the assembly restarts.)", "quantifier": "every sequence of calls to the decoder (pages of any satellites, navigation words, key loading), every content of the header and block fields", "why_tests_cant": "Arrival orders and DSM identifier changes are unbounded.", "anchors": ["src/cssrlib/osnma.py:osnma.decode_hk"]}
{"id": "C23", "title": "OSNMA sub-frame page collection", "statement": "The authentication data of a satellite is processed exactly when, counting since its last page 0, all fifteen page positions have been received and the page just stored is one of them; the header and MACK sections processed are the concatenations of the latest pages of the fifteen positions; until then a page changes nothing but the page buffers. If page 0 of the sub-frame was received and pages of that satellite arrive in time order, all fifteen belong to that sub-frame, and a sub-frame received completely in order is always processed. (When page 0 is lost, pages of the previous sub-frame can complete the set.)", "quantifier": "every sequence of page receptions (satellite, time, content) interleaved with any other decoder calls", "why_tests_cant": "Losses and time jumps create unboundedly many interleavings.", "anchors": ["src/cssrlib/osnma.py:osnma.decode"]}
{"id": "C24", "title": "OSNMA key chain reaches the root", "statement": "Hashing a disclosed key back towards the root uses, for every step that does not lie more than one step before the start of the key's week, exactly the system time of that step (30 s earlier each, with the week number reduced at the roll-over), and the number of steps is the one that leads to the root key's time. Every further step beyond the roll-over is hashed with a wrong week number, and a chain reaching back more than a week before the start of the key's week (or before week 0) raises; so does the processing of the first sub-frame of each week.", "quantifier": "every distance between the disclosed key's time and the root key's time, including across week boundaries; every hash function", "why_tests_cant": "A week roll-over inside the chain is hit only if the test data spans one.", "anchors": ["src/cssrlib/osnma.py:osnma.update_key_chain", "src/cssrlib/osnma.py:osnma.verify_key_chain"]}
{"id": "C25", "title": "QZSS NMA: signature check gates authenticated status", "statement": "A satellite/issue pair of the QZSS navigation-message authentication service is marked valid only by a call in which a signature, checked with a key read from the key directory, verified: either a record of an L6 message naming that satellite and issue, over the kept bits of the message stored for exactly that satellite, issue and type, or (always recorded under issue 0) the last signature received from the QZSS satellite itself over the message collected from it. Counts never decrease, a failing check changes nothing, and every stored message is complete and carries the issue it is stored under. The number of the key is ignored once a key is loaded.", "quantifier": "every history of navigation-message loading and decode calls with any contents; any behaviour of the signature primitive and of the key directory", "why_tests_cant": "Adversarial histories cannot be sampled.", "anchors": ["src/cssrlib/qznma.py:qznma.verify_gnss_nav", "src/cssrlib/qznma.py:qznma.verify_qzss_nav", "src/cssrlib/qznma.py:qznma.decode"]}
{"id": "C26", "title": "SBAS fast corrections are gated by the mask issue", "statement": "A fast-correction (types 2-5), degradation (7) or mixed (24) message whose mask issue differs from the current one changes nothing. Otherwise the k-th fast correction goes to the k-th satellite of the addressed block of thirteen of the current mask and to no other satellite; the integrity indicators are those transmitted for the satellite when the block has at least twelve satellites, and are read from earlier bits (wrong) when it is shorter. Integrity (6) and degradation (7) messages give the k-th indicator to the k-th satellite of the mask. The mask in use is always the one of the last mask message. Long-term halves of another issue change nothing; accepted ones change only the satellites obtained by reading the mask number as a slot number, which is the satellite meant only if the mask holds it at that place. A rejected first half makes the second half be read from the wrong bit; the mixed message's half is read ten bits early; dual-frequency integrity messages raise whenever accepted.", "quantifier": "every decoder state, every mask with distinct satellites, every message content long enough; every stream of messages for the mask in use", "why_tests_cant": "Number of masked satellites varies 0..51 and messages carry 13-satellite blocks; edges are data dependent.", "anchors": ["src/cssrlib/sbas.py:sbasDec.decode_sbas_fast_corr", "src/cssrlib/sbas.py:sbasDec.decode_sbas_fast_corr_blk"]}
{"id": "C27", "title": "SBAS satellite slots", "statement": "Each SBAS mask slot maps to the satellite of the constellation owning the slot in the slot plan, slots without owner map to no satellite, and different used slots map to different satellites; the satellites listed by the L5 and L1 mask decoders are those of the slots set, in order and without repetition, except that the reserved GPS slots 33-37 of the L1 mask are taken for Galileo satellites 1-5.", "quantifier": "every slot number, every mask content, every decoder state", "why_tests_cant": "Overflow only at the upper edge of a constellation's slot range.", "anchors": ["src/cssrlib/sbas.py:sbasDec.slot2sat"]}
{"id": "C28", "title": "SBAS ionospheric grid interpolation weights", "statement": "The interpolation weights of the available grid corners are non-negative, sum to one and reproduce the position of the pierce point; a point is rejected exactly when it is outside the triangle of the three available corners. Up to 75 degrees of latitude the corners are those of the cell that contains the point and exist in the grid, each value used is the one held for the grid point at that corner, and constant or linear grids are reproduced exactly, any grid within its bounds. The grid points of all bands, the corners in the polar caps, the band from which each corner is taken, the network whose age is used, and the variance (from the error bounds of the indicators, the age and the slant factor) are those of the specification. Delay messages of another mask issue change nothing and accepted ones write the k-th delay of block b to point 15b+k. Proved exceptions: quality index 0 is ignored, 15 (not monitored) and delay 511 (do not use) are used, a larger later mask raises, there is never a correction polewards of 85 degrees, and the last twelve points of the polar bands are at 80 instead of 85 degrees.", "quantifier": "every pierce-point position, every choice of available grid points, every grid content, every delay message", "why_tests_cant": "Real-valued positions; degenerate triangles.", "anchors": ["src/cssrlib/sbas.py:ionoSBAS", "src/cssrlib/sbas.py:searchIGP"]}
{"id": "C29", "title": "Integer least-squares search returns the optimum", "statement": "The LAMBDA searches end and return the requested number of distinct integer candidates with the smallest weighted squared distance to the float solution, in order and with their distances; every integer vector not returned is at least as far away as all returned ones. End to end, mlambda with full fixing returns the best integer vectors of the original problem, and refuses exactly the symmetric matrices without an Lt*D*L factorisation with pivots of at least 1e-10. This needs as many integer vectors closer than 1e18 (the initial search bound) as candidates are requested; otherwise zero vectors with distance zero are returned.", "quantifier": "every dimension, number of candidates, float vector and covariance (exact arithmetic); every search, without a bound on its length", "why_tests_cant": "The search tree is pruned by a shrinking bound; a pruning error loses the optimum only for rare geometries.", "anchors": ["src/cssrlib/mlambda.py:msearch", "src/cssrlib/mlambda.py:mlambda"]}
{"id": "C30", "title": "Ambiguity decorrelation is an exact integer change of variables", "statement": "The factorisation of the covariance is exact and is found whenever one with pivots of at least 1e-10 exists. The decorrelation ends and returns an integer matrix with determinant +-1; the new factors are unit lower triangular with positive diagonal and belong to Zt*Q*Z, with off-diagonal entries of at most 1/2 and conditional variances in order up to 1e-6. Integer vectors of the two problems correspond one to one with the same distance, and the rounded inverse used to transform back is the exact inverse.", "quantifier": "every dimension and every positive-definite covariance (exact arithmetic); every sequence of Gauss and permutation steps", "why_tests_cant": "Sequences of integer Gauss and permutation steps are unbounded.", "anchors": ["src/cssrlib/mlambda.py:reduction", "src/cssrlib/mlambda.py:ldldecom"]}
{"id": "C31", "title": "RTCM frame checksum round-trip", "statement": "A frame built by the encoder (length set, checksum appended) is accepted by the decoder's checksum test wherever it is placed in a buffer, and the reported length is the encoded one; the test accepts a complete frame of at least 6 payload bytes exactly when its last three bytes are the CRC of what precedes them. Payloads under 6 bytes are refused.", "quantifier": "every payload length the 10-bit length field can carry and every payload content", "why_tests_cant": "2^8184 payloads.", "anchors": ["src/cssrlib/rtcm.py:rtcm.checksum", "src/cssrlib/rtcm.py:rtcme.set_checksum", "src/cssrlib/rtcm.py:rtcme.set_len", "src/cssrlib/rtcm.py:rtcme.set_body"]}
{"id": "C32", "title": "RTCM frame corruption is detected", "statement": "A complete valid frame in which the length field is unchanged is rejected by the checksum test if the altered bits of the frame lie within 24 consecutive bits, if exactly two bits are altered, or if an odd number of bits is altered.", "quantifier": "every valid frame of any length at any offset, every position and pattern of the alteration", "why_tests_cant": "The number of frames times burst patterns is astronomically large.", "anchors": ["src/cssrlib/rtcm.py:rtcm.checksum"]}
{"id": "C33", "title": "RTCM SSR orbit/clock encode-decode round-trip", "statement": "An SSR orbit, clock or user-range-accuracy message for GPS, Galileo, QZSS (and BeiDou for clock and accuracy) that the encoder accepts is read by the decoder up to the encoder's cursor with the same header (epoch, interval, issue, provider, solution) and, for every satellite of the constellation, the same issue of data and the values rounded to the nearest field unit (the most negative code reads as not available); entries of other satellites are kept, or dropped if the epoch is newer. Accuracy messages need as many accuracy entries as listed satellites. Combined and high-rate clock records written with the record encoders are read back, but the message encoders for them do not exist. GLONASS messages are misread (6 bits written, 5 read), BeiDou orbit messages are handed to another decoder, and QZSS numbers above 207 do not fit.", "quantifier": "every content of the encoder (any number of satellites, any values including missing ones), every buffer, every earlier state of the decoder", "why_tests_cant": "Field widths vary by constellation; overflow and sign handling are value dependent.", "anchors": ["src/cssrlib/rtcm.py:rtcm.decode_orb_sat", "src/cssrlib/rtcm.py:rtcme.encode_orb_sat", "src/cssrlib/rtcm.py:rtcm.decode_clk_sat", "src/cssrlib/rtcm.py:rtcme.encode_clk_sat", "src/cssrlib/rtcm.py:rtcm.decode_sat", "src/cssrlib/rtcm.py:rtcme.encode_sat"]}
{"id": "C34", "title": "RTCM message-number tables are consistent", "statement": "Every RTCM message number is classified into at most one (constellation, message kind), the one of the standard numbering, for multi-signal, SSR and IGS SSR sub-type numbers; no number belongs to two families. Mapping a kind to its number and back returns the kind; number to kind and back returns the number except for the seventeen test numbers that duplicate a standard kind. The constellation looked up from the number is the one of the table, and encoder and decoder dispatch every number (observations, ephemerides, station data, network residuals, corrections, integrity) to the method responsible for it and every other number to none. Exceptions: 1069 passes the SSR range test without being an SSR number, and BeiDou orbit number 63 is decoded as an ephemeris.", "quantifier": "every 12-bit message number and every sub-type", "why_tests_cant": "Range overlaps show only at the first/last number of a block.", "anchors": ["src/cssrlib/rtcm.py:rtcmUtil.msmtype", "src/cssrlib/rtcm.py:rtcmUtil.is_msmtype", "src/cssrlib/rtcm.py:rtcmUtil.ssrtype", "src/cssrlib/rtcm.py:rtcmUtil.is_ssrtype", "src/cssrlib/rtcm.py:rtcmUtil.mt2sct", "src/cssrlib/rtcm.py:rtcmUtil.sct2mt"]}
{"id": "C35", "title": "RTCM MSM cells are assigned to the right satellite and signal", "statement": "In a multi-signal message (MSM1-MSM7) the value stored for the k-th satellite and q-th signal of the masks is, when the cell is set, the rough range of the satellite plus the fine value whose number is the count of set cells before it in row-major order (phase likewise, scaled to cycles; strength directly), and zero when it is not set; satellites are those of the mask. Rough ranges of MSM1-3 are counted in milliseconds instead of 1/1024 ms, GLONASS phases of messages without extended information use frequency channel -7, loss-of-lock flags are never set, more than 64 cells raise. Every signal number has the RINEX name of the table, different numbers denote different signals, and phases are converted with the carrier frequency of the band (GLONASS: of the channel in the extended information); GLONASS G2a signals raise and NavIC L5 gets the frequency of Galileo E5.", "quantifier": "every satellite mask, signal mask and cell mask, every field content, every message type, every lock history", "why_tests_cant": "2^64 cell masks.", "anchors": ["src/cssrlib/rtcm.py:rtcm.decode_msm"]}
{"id": "C36", "title": "Split navigation fields are reassembled correctly", "statement": "Reading a navigation parameter split over two or three bit fields returns the unsigned / two's-complement value of the concatenated bits.", "quantifier": "every bit content, every pair/triple of field positions and lengths", "why_tests_cant": "Sign extension across fields depends on the top bit only.", "anchors": ["src/cssrlib/rawnav.py:RawNav.getbitu2", "src/cssrlib/rawnav.py:RawNav.getbits2", "src/cssrlib/rawnav.py:RawNav.getbitu3", "src/cssrlib/rawnav.py:RawNav.getbits3", "src/cssrlib/rawnav.py:RawNav.getbitg", "src/cssrlib/rawnav.py:RawNav.u2s"]}
{"id": "C37", "title": "Legacy GPS ephemeris is assembled from one data set", "statement": "After any sequence of received LNAV sub-frames the decoder never raises, and a call returns an ephemeris exactly when the sub-frame has the preamble, the last received sub-frames 1, 2 and 3 of that satellite are all present and their issue-of-data values agree; the ephemeris is the one of exactly these three sub-frames, by the parameter table of the interface document, except that the eccentricity is read as a signed number (so values of 0.25 or more come out 0.5 too small) and the transmission time is 1356 weeks late. Sub-frames with other identifiers or of other satellites never influence later ephemerides.", "quantifier": "every sequence of calls with arbitrary satellites and arbitrary message content of at least 40 bytes, including invalid sub-frame ids", "why_tests_cant": "Invalid ids and interleavings of old/new data sets are unbounded.", "anchors": ["src/cssrlib/rawnav.py:RawNav.decode_gps_lnav"]}
{"id": "C38", "title": "Galileo ephemerides (I/NAV and F/NAV) are assembled from one issue", "statement": "After any sequence of received I/NAV words the decoder never raises, and a call returns an ephemeris exactly when it brings a word of type 1-5 and the last received words 1-4 of that satellite carry one issue number and word 5 is present; the parameters are those of exactly these words by the interface document. The same holds for F/NAV pages 1-4, with one extra condition: bits 6-11 of the page just received must equal the satellite number in page 1, so that page 1 completes a set but pages 2-4 do so only when the leading bits of the issue number happen to equal the satellite number.", "quantifier": "every sequence of received words/pages of Galileo satellites with arbitrary content", "why_tests_cant": "Issue changes in the middle of a sequence.", "anchors": ["src/cssrlib/rawnav.py:RawNav.decode_gal_inav", "src/cssrlib/rawnav.py:RawNav.decode_gal_fnav"]}
{"id": "C39", "title": "RINEX header signal lists are read completely", "statement": "Reading an observation header record declaring n signal codes (13 per line) consumes exactly the record and stores the i-th code under index i, whenever the last line of the record carries at least as many codes as there are continuation lines - in particular for every n up to 26. For every other n (27, 40, 41, 53, ...) the reader leaves a continuation line behind and fails with ValueError. GLONASS slot records (8 per line) are read completely for every number of satellites.", "quantifier": "every number of signals (0-999), all codes, every constellation letter, everything following the record; every number of GLONASS slots", "why_tests_cant": "Only particular counts (27, 40, 41, ...) go wrong.", "anchors": ["src/cssrlib/rinex.py:rnxdec._decode_obsh"]}
{"id": "C40", "title": "Observation synchronisation returns only simultaneous epochs and terminates", "statement": "Synchronising rover and base observation files returns only a pair within the time tolerance. For time-ordered files the returned epochs are the first of their file matching any epoch of the other, and the files are left just behind them. The call returns exactly when such a pair exists or both files are already exhausted, within one step per remaining epoch; otherwise (one file exhausted first) it never returns.", "quantifier": "every pair of observation sequences (time-ordered for the last two parts), any tolerance", "why_tests_cant": "Gaps and offsets in both files form unboundedly many patterns; termination is not observable by a passing test.", "anchors": ["src/cssrlib/rinex.py:sync_obs", "src/cssrlib/rinex.py:rnxdec.decode_obs"]}
{"id": "C41", "title": "RINEX navigation output has no consecutive duplicates and loses nothing", "statement": "Writing a stream of ephemerides writes a record exactly when the format has one for the satellite and message type and the issue number differs from the last one submitted for the same satellite and message type; per satellite and message type the written issues are the submitted ones with repetitions in a row removed, in order. The record carries the name of its message: LNAV, CNAV, CNV2 (GPS, QZSS), INAV, FNAV, D1 for BeiDou 6-58 and D2 for the others, CNV1-3, LNAV/L1NV (NavIC), FDMA, L1OC, L3OC, SBAS.", "quantifier": "every stream of ephemerides of any satellites, message types and issues, given to any of the three writers", "why_tests_cant": "Streams are unbounded; repeated, returning and interleaved issues.", "anchors": ["src/cssrlib/rinex.py:rnxenc.rnx_nav_body"]}
{"id": "C42", "title": "Day adjustment", "statement": "Adjusting an epoch to a reference changes it by -1, 0 or +1 days (weeks for the week adjustment), leaves it alone when it is within half a day, brings it within half a day when it was within a day and a half, and otherwise moves it one day closer. A GPS or GLONASS time of day resolved against a reference gives the epoch with that time of day within half a day of the reference.", "quantifier": "every epoch and reference", "why_tests_cant": "Edges at exactly half a day.", "anchors": ["src/cssrlib/rinex.py:rnxdec.adjday", "src/cssrlib/gnss.py:adjtime", "src/cssrlib/gnss.py:tod2tow"]}
{"id": "C43", "title": "Ephemeris selection", "statement": "Ephemeris lookup returns only an ephemeris of the requested satellite and message type within the system's age limit; with an issue number it returns the first such with that issue; without, the youngest (of equals the last); nothing exactly when there is none. Almanac lookup returns the youngest almanac of the satellite within the limit given. The ephemeris lookup raises exactly for numbers of no constellation.", "quantifier": "every ephemeris list, satellite, epoch, issue and message type", "why_tests_cant": "List order, ties and limits are unbounded.", "anchors": ["src/cssrlib/ephemeris.py:findeph"]}
{"id": "C44", "title": "What evaluating satellite positions does to the corrections", "statement": "Corrections are applied to a satellite exactly when the orbit and clock corrections belong to the current or previous list of satellites that contains it, are complete, and the ephemeris of the named issue is found. For services with radial/along/cross corrections evaluation never modifies the stored corrections, so repeating it gives the same result. For Cartesian services (PVS, SBAS) every evaluation overwrites the stored orbit correction, keeping rate and reference time, so after evaluations at several epochs the correction applied is the transmitted one plus the rate times the sum of all ages; it is right exactly when the rate is zero or the ages of the earlier evaluations cancel.", "quantifier": "every correction object, service, epoch and satellite, every number of repeated evaluations", "why_tests_cant": "In-place updates through shared arrays drift slowly and look like noise in test tolerances.", "anchors": ["src/cssrlib/ephemeris.py:satposs", "src/cssrlib/ephemeris.py:satpos"]}
{"id": "C45", "title": "Precise-orbit interpolation is exact on polynomials", "statement": "The interpolation used for precise orbits reproduces, at the requested epoch, any polynomial of degree at most the number of nodes minus one, for arbitrary distinct node times.", "quantifier": "every number of nodes, every distinct node set, every polynomial", "why_tests_cant": "A test compares against a table within tolerance; index errors of the recurrence may hide in smooth data.", "anchors": ["src/cssrlib/peph.py:peph.interppol"]}
{"id": "C46", "title": "Precise orbit and clock lookup", "statement": "In a time-ordered table the epoch search finds the epochs bracketing the request, the eleven interpolation nodes lie inside the table around them (from the fifth epoch before, shifted at the ends), and requests more than 900 s outside the table (or tables of fewer than 11 epochs) give nothing. The position returned is exact whenever the orbit, in the Earth-fixed frame of the request, is polynomial of degree ten or less, and equals the table value at a table epoch; the clock is the table value at an epoch, the end value outside and the straight line between neighbours. (If a file contained epochs without any value, the epoch counter exceeds the table and the lookup raises.)", "quantifier": "every ordered table and every request time", "why_tests_cant": "Window clamping at both ends and equal times.", "anchors": ["src/cssrlib/peph.py:peph.pephpos", "src/cssrlib/peph.py:peph.pephclk"]}
{"id": "C47", "title": "State vector slots never overlap", "statement": "In the PPP filter the position, velocity, troposphere, ionosphere and ambiguity states occupy pairwise disjoint positions inside the state vector, and the process noise reaches the states it is meant for, when troposphere and ionosphere are both estimated or both not. With the troposphere estimated alone the troposphere state falls onto the ambiguity of one GPS satellite; with the ionosphere estimated alone its process noise is shifted by one state.", "quantifier": "all positioning modes, troposphere/ionosphere options, numbers of frequencies, satellites", "why_tests_cant": "Overlaps occur for option combinations no test enables.", "anchors": ["src/cssrlib/pppssr.py:pppos.IB", "src/cssrlib/pppssr.py:pppos.II", "src/cssrlib/pppssr.py:pppos.IT", "src/cssrlib/pppssr.py:pppos.__init__"]}
{"id": "C48", "title": "Fixed ambiguities restore consistent single differences", "statement": "The double differences formed are, for each constellation and frequency, the first satellite in view, initialised, valid and above the mask against each of the others; more than 233 raise. After integer resolution the restored ambiguity of the reference minus that of the other satellite is exactly the fixed integer of the pair, references and all states not in a pair keep their float value, and the constraints of fix-and-hold are the same pairs with innovations fixed minus float difference.", "quantifier": "every set of observed satellites, elevations and validity flags; any number of frequencies", "why_tests_cant": "The pairing of two independently written enumeration loops must agree for every flag pattern.", "anchors": ["src/cssrlib/pppssr.py:pppos.ddidx", "src/cssrlib/pppssr.py:pppos.restamb", "src/cssrlib/pppssr.py:pppos.holdamb"]}
{"id": "C49", "title": "Measurement covariance and filter update preserve symmetry and positivity", "statement": "The single differences formed are those against the highest satellite of each constellation and never overrun their vectors; the measurement covariance is exactly the covariance of these differences for independent measurements with the variances of the error model, hence symmetric positive semidefinite (definite for a non-zero error model). The filter update maps a symmetric positive semidefinite covariance to one for any gain; with its own gain it succeeds for every positive definite measurement covariance, never increases the covariance, and no other gain gives a smaller one.", "quantifier": "all dimensions, all real matrices, every set of satellites, elevations, missing and edited measurements", "why_tests_cant": "A property over a continuum of matrices.", "anchors": ["src/cssrlib/pppssr.py:pppos.ddcov", "src/cssrlib/pppssr.py:pppos.sdres", "src/cssrlib/pppssr.py:pppos.varerr", "src/cssrlib/pppssr.py:pppos.kfupdate"]}
{"id": "C50", "title": "Carrier smoothing", "statement": "The smoothed pseudorange is the measured one when code or phase is missing, otherwise the phase plus the smoothed code-minus-carrier of the current run of measurements: their plain average up to ns measurements, and always within the range of their values. A run starts afresh after a missing measurement, a gap, or a disagreement of code and carrier. The call raises exactly when the measurement is complete and the very first one of that satellite was not.", "quantifier": "every sequence of (possibly missing) code/phase measurements of any satellites, every setting", "why_tests_cant": "Sequences starting with missing data are not in test recordings.", "anchors": ["src/cssrlib/pntpos.py:stdpos.csmooth"]}
{"id": "C51", "title": "Phase wind-up is continuous", "statement": "The wind-up correction differs from the previous one by at most half a cycle and from the geometric angle between the effective dipoles (signed along the line of sight) by a whole number of cycles, and is the only such value; so over any number of epochs it reproduces a continuous rotation angle that moves less than half a cycle per epoch, without slips. Turning the receiver antenna or the satellite about its own axis by any angle changes the correction by exactly that angle up to whole cycles, in whatever direction the satellite is seen; the satellite axes are a right-handed orthonormal frame pointing to the Earth, and the dipoles never vanish for a receiver in front of the satellite and a satellite above the horizon.", "quantifier": "every previous value, geometry and rotation angle; every sequence of epochs", "why_tests_cant": "Real-valued; wrap at half cycles.", "anchors": ["src/cssrlib/ppp.py:windupcorr"]}
{"id": "C52", "title": "Emergency warning message layout", "statement": "A common alert message that decodes takes 122 bits and reports exactly what its fields say (type, hazard, severity, onset as minute of the current or next week, guidance, target ellipse with refinement, hazard centre, second ellipse, detail indices); it is skipped without report when the hazard is unknown or the guidance is national but not Japan's. It decodes exactly when the region is known and, unless skipped, the guidance and detail codes are in their tables; detailed information of any hazard but fourteen listed ones always raises, and printing an international message raises. An extension takes 74 bits, or none for national messages of providers other than 1-3, and decodes exactly when the prefectures and municipalities it names are in the tables (for provider 1 at most once); after a message with unknown hazard it is interpreted with the guidance selection of an earlier message.", "quantifier": "every message content, every content of the external tables, every provider, region, hazard and subject, every earlier state", "why_tests_cant": "Branches per hazard type and provider; the failing ones need specific codes, and external tables differ between installations.", "anchors": ["src/cssrlib/ewss.py:camfDec.decode", "src/cssrlib/ewss.py:camfDec.decode_ext"]}
{"id": "C53", "title": "Differential corrections are gated by mask issue and reference station", "statement": "DGPS (QZSS SLAS) messages: the mask message announces the satellites of its set bits in order (each once, unless GPS 33-64 or GLONASS 33-36 bits are set, which are taken for Galileo and SBAS satellites). Issue and correction messages of another mask or data issue, or of an unhealthy station, change nothing; an accepted one replaces the corrections of its station only, the i-th value (4 cm units, at most fifteen) belonging to the i-th selected satellite of the mask with the issue announced for it; a selected satellite without announced issue, and stations beyond the 32nd, raise. At any time a station holds the corrections of the last message accepted for it. Station messages set the coordinates of the stations they list before the first empty entry (0.005 degree and 50 m units); thirteen stations are known from the start; health messages raise. The station used is the nearest one with known coordinates (latitude and cosine-scaled longitude differences); if it has no corrections, the ones used before stay in use.", "quantifier": "every message content, every history of messages and uses, every user position", "why_tests_cant": "Mask sizes and histories are unbounded.", "anchors": ["src/cssrlib/dgps.py:dgpsDec.decode_mt48", "src/cssrlib/dgps.py:dgpsDec.decode_mt49", "src/cssrlib/dgps.py:dgpsDec.decode_mt50", "src/cssrlib/dgps.py:dgpsDec.get_station", "src/cssrlib/dgps.py:dgpsDec.set_dgps_corr"]}
{"id": "C54", "title": "Antenna and bias lookup respect validity periods", "statement": "Looking up an antenna calibration or an observable-specific bias returns the first entry in file order with the requested name (satellite, signal) whose validity interval contains the epoch, and nothing exactly when there is none; consecutive intervals never both apply. Day-of-year times of the files denote the calendar epoch. (An undefined end is after every epoch, but an undefined start is too, so such a bias never applies; looking up a differential bias raises whenever an entry matches.)", "quantifier": "every table, epoch, satellite and signal", "why_tests_cant": "Overlapping/adjacent validity intervals and boundaries.", "anchors": ["src/cssrlib/peph.py:searchpcv", "src/cssrlib/peph.py:biasdec.getosb", "src/cssrlib/peph.py:biasdec.doy2time"]}
{"id": "C55", "title": "QZSS L1S/LNAV integrity of authentication masks", "statement": "The masking applied to navigation messages before signature verification zeroes exactly the bits excluded from the signature and keeps all others, so two messages that differ only in excluded bits verify alike and any other difference changes the signed data.", "quantifier": "every navigation message content", "why_tests_cant": "2^900 message contents.", "anchors": ["src/cssrlib/qznma.py:qznma.lnav_to_mnav", "src/cssrlib/qznma.py:qznma.gen_rds"]}
{"id": "C56", "title": "Partial ambiguity fixing", "statement": "With partial fixing (mode 2) the integer search either returns the float ambiguities unchanged with zero fixed, or fixes all ambiguities or all but one of a unimodular set of integer combinations: it fixes all when their bootstrapped success rate is above the limit, all but one when that is below but the rate of the rest is above, and none otherwise (a rate equal to the limit does not fix). The fixed combinations take the closest integer values in the metric of their covariance, best first, and each returned ambiguity vector is the unique closest real vector to the float one that has these integer combinations, at the reported distance.", "quantifier": "every number of ambiguities, float vector, positive definite covariance, success-rate function and limit (the candidates within 1e18)", "why_tests_cant": "Real-valued vectors of any dimension; the claim compares against all integer and real vectors.", "anchors": ["src/cssrlib/mlambda.py:parsearch", "src/cssrlib/mlambda.py:mlambda"]}
{"id": "C57", "title": "Fixed solution from resolved ambiguities", "statement": "A fixed solution is reported exactly if ambiguities were fixed and, in full mode, the best candidate is exact or the ratio of the two best distances reaches the threshold; its position part is the minimum-variance estimate given the fixed double differences (the closest state having them) and in full mode its covariance is the covariance of that estimate, positive semidefinite, never above the float one and never above that of any other gain. In partial mode the estimate is the right one for the fixed combinations, but the reported covariance is that of a full fix: never larger than the right one, and equal to it only if the ambiguity left out carries no further information.", "quantifier": "every state, covariance, set of double-difference pairs, threshold and mode 1 or 2", "why_tests_cant": "Real-valued states and covariances of any dimension; optimality is a claim over all gains.", "anchors": ["src/cssrlib/pppssr.py:pppos.resamb_lambda", "src/cssrlib/mlambda.py:mlambda"]}
{"id": "C58", "title": "Broadcast ephemerides through a navigation file", "statement": "Writing any sequence of GPS, QZSS, Galileo, BeiDou and NavIC ephemerides to a RINEX 4 navigation file and reading it back gives one ephemeris per record in the same order with the same satellite, message type, clock, orbit and clock reference time. The legacy messages also keep issue, week, reference time and health. The time of transmission is kept exactly if it lies in the week of the ephemeris (BeiDou: never, it comes back 14 s late); the two Galileo group delays come back exchanged exactly if bit 9 of the data source is set; the NavIC group delay comes back 0; GPS/QZSS civil messages get the clock reference time as ephemeris time; the BeiDou B2b and NavIC L1 messages lose the issue of data, the latter also week and time. A leading record without the line naming its message is read as the legacy message.", "quantifier": "every list of ephemerides of any length with any parameters, clock times before 2100 and a supported message", "why_tests_cant": "Files of unbounded length over real-valued parameters, five constellations and thirteen message layouts.", "anchors": ["src/cssrlib/rinex.py:rnxenc.rnx_nav_body", "src/cssrlib/rinex.py:rnxdec.decode_nav"]}
{"id": "C59", "title": "PPP-B2b code biases, accuracies, epochs and availability", "statement": "A PPP-B2b message of the issue in force gives each satellite of the mask exactly what it carries for it: a bias message the biases of the satellite's last record, signal by signal under the RINEX name of the signal number (the two most negative values meaning not available, an unknown signal number raising KeyError); an orbit or accuracy message its accuracy; orbit, clock and bias messages the epoch of that kind of correction, which is the message's time of day in the current BeiDou day shifted by 14 s to GPS time; all other satellites keep theirs, the availability flag of the message type is set and no other, and messages of another issue (or clock messages of another mask) change nothing but the time. A new mask number discards biases and accuracies. Two deviations are characterised: the entries of a satellite outside the mask are not skipped, so that the records after it are misread, and the mask number of accuracy messages is not compared.", "quantifier": "every decoder state and every message content and length", "why_tests_cant": "Record positions depend on all earlier records; masks, repetitions of a satellite and histories combine without bound.", "anchors": ["src/cssrlib/cssr_bds.py:cssr_bds.decode_cssr_cbias", "src/cssrlib/cssr_bds.py:cssr_bds.decode_cssr_ura", "src/cssrlib/cssr_bds.py:cssr_bds.decode_head", "src/cssrlib/cssr_bds.py:cssr_bds.ssig2rsig"]}
{"id": "C60", "title": "Orbit, clock, bias and accuracy messages of Compact SSR and Galileo HAS give every satellite exactly the values at its place", "statement": "Once a mask is in force, an orbit (subtype 2), clock (3), code-bias (4), phase-bias (5) or accuracy (7) message - in the layout of the QZSS service or of Galileo HAS - is accepted exactly when it is long enough and raises otherwise. Every satellite of the mask then has the value at its own place in the message: ephemeris issue (10 bits for Galileo, 8 otherwise) and three orbit components, clock (for HAS times the multiplier of its constellation), one code bias per signal of its signal list, one phase bias and discontinuity counter per signal, accuracy; satellites outside the mask have none. Values are in metres, HAS orbit corrections have the opposite sign, the most negative field (for HAS also the most positive one) means not available. The epochs of the named satellites become the time of the message, and besides the running time, update interval, issue and availability flag of that kind of correction nothing else in the decoder changes. A clock message before any mask is refused.", "quantifier": "all decoder states with consistent mask lists (as every accepted mask message leaves them), all messages of any length and content, both services, any number of satellites and signals, any correction slot", "why_tests_cant": "Item positions depend on the whole mask (constellation of every earlier satellite, number of signals of every earlier satellite); recorded streams exercise a few masks, and a field read one bit off gives plausible centimetre values", "anchors": ["src/cssrlib/cssrlib.py:cssr.decode_cssr_orb", "src/cssrlib/cssrlib.py:cssr.decode_cssr_clk", "src/cssrlib/cssrlib.py:cssr.decode_cssr_cbias", "src/cssrlib/cssrlib.py:cssr.decode_cssr_pbias", "src/cssrlib/cssrlib.py:cssr.decode_cssr_ura", "src/cssrlib/cssrlib.py:cssr.decode_orb_sat", "src/cssrlib/cssrlib.py:cssr.decode_clk_sat", "src/cssrlib/cssrlib.py:cssr.set_t0", "src/cssrlib/cssr_has.py:cssr_has.decode_head"]}
{"id": "C61", "title": "Long-term, dual-frequency and ionospheric-mask messages of SBAS store exactly the values they carry", "statement": "An accepted long-term half message (within type 24 or 25) stores, for the satellite of each slot number it names, the issue of data, the negated orbit correction (eighths of a metre), the clock correction (2^-31 s as metres) and, in the form with rates, their rates (2^-11 m/s negated, 2^-39 s/s as metres), all under the current epoch; a later item replaces an earlier one, nothing held for another satellite changes, and the satellites named are appended once to the list of corrected satellites. The short form never yields a missing value; in the long form and in type 32 only the largest value of a field means missing. A dual-frequency correction (32) stores one such item (sixteenths, 1/32 m, 2^-11, 2^-12) under the epoch of its time of day, and slot 0 changes nothing. A dual-frequency mask (31) of another issue keeps the previous list. A type 34 message whose bits 214 and 215 are the issue of the current mask raises exactly when a listed satellite has a non-zero indicator or more than 92 are listed, and otherwise changes nothing. A grid mask (18) replaces the marked points of its band and the issue; delays and indicators of the band are created by its first mask only, and along any message stream they keep the number of points they got then.", "quantifier": "every decoder state, every message of at least 226 bits (every content), every stream of messages for the last sentence", "why_tests_cant": "Each message has up to twenty signed fields of different widths and scales; a wrong width or offset gives a value of plausible size, and combinations of both halves with repeated satellites never occur in a test recording", "anchors": ["src/cssrlib/sbas.py:sbasDec.decode_sbas_lcorr_half", "src/cssrlib/sbas.py:sbasDec.add_sbas_corr", "src/cssrlib/sbas.py:sbasDec.decode_sbas_long_corr", "src/cssrlib/sbas.py:sbasDec.add_dfmc_corr", "src/cssrlib/sbas.py:sbasDec.decode_cssr_orb", "src/cssrlib/sbas.py:sbasDec.decode_dfmc_mask", "src/cssrlib/sbas.py:sbasDec.decode_dfmc_integrity_mt34", "src/cssrlib/sbas.py:sbasDec.decode_sbas_igpmask"]}
{"id": "C62", "title": "Network messages of Compact SSR give exactly the satellites of the network the orbit, clock and bias values at their place", "statement": "Once a mask is in force, a combined orbit and clock message (subtype 11) of the issue in force, and a bias message (6) with its network flag set, are accepted exactly when they are long enough and raise otherwise. They carry three flags (orbit, clock, network; code bias, phase bias, network); with the network flag set they name a network and, by one bit per satellite of the mask, the satellites covered. Afterwards the tables of that network's correction slot hold, for every kind of correction flagged, exactly the values at the places of the covered satellites (orbit before clock within an item, code bias before phase bias within a signal) and nothing for other satellites; tables of kinds not flagged are untouched. Epochs of the covered satellites are set for the flagged kinds only, the availability flags of these kinds are set, update intervals are taken over, and nothing else in the decoder changes; a bias message also records its issue and the list of covered satellites, a combined message does not. A combined message of another issue changes only the running time. A bias message without network flag raises UnboundLocalError as soon as the mask is not empty, and a message with network flag raises when it is empty.", "quantifier": "all decoder states with consistent mask lists, all messages of any length and content, any number of satellites and signals, all flags, networks and satellite subsets", "why_tests_cant": "Positions of items depend on flags, the satellite subset and the signal lists of all earlier satellites: exponentially many layouts, of which a recording contains a handful", "anchors": ["src/cssrlib/cssrlib.py:cssr.decode_cssr_comb", "src/cssrlib/cssrlib.py:cssr.decode_cssr_bias", "src/cssrlib/cssrlib.py:cssr.decode_local_sat", "src/cssrlib/cssrlib.py:cssr.isset", "src/cssrlib/cssrlib.py:cssr.decode_orb_sat", "src/cssrlib/cssrlib.py:cssr.decode_clk_sat", "src/cssrlib/cssrlib.py:cssr.decode_cbias_sat", "src/cssrlib/cssrlib.py:cssr.decode_pbias_sat"]}
{"id": "C63", "title": "Ionosphere and troposphere messages of Compact SSR give a network exactly the values at their place", "statement": "Once a mask is in force, an ionosphere message (subtype 8), a gridded message (9) and an atmospheric message (12) of the issue in force are accepted exactly when they are long enough and raise otherwise; a message of another issue changes only the running time. Afterwards the correction slot of the network named holds the covered satellites, and: for the ionosphere message the quality and the six coefficients of every covered satellite, coefficients its type lacks being zero; for the gridded message the troposphere quality, the hydrostatic and wet values of each grid point (zero when the message carries none) and the residual of every covered satellite at every grid point, 7 or 16 bits wide; for the atmospheric message, each part only when flagged, the troposphere coefficients (2.3 m added to the first, zero if there is no functional part), the wet residuals and their offset, and per satellite the quality, the type and coefficients, and the residuals of the size and scale chosen for that satellite. Every reserved bit pattern (smallest negative number) gives NaN. Availability flags, update intervals and epochs are those of the parts contained, with the exception that an atmospheric message marks the ionosphere of all its satellites as fresh even when it carries none; nothing else in the decoder changes. Gridded messages, and atmospheric messages with troposphere, raise TypeError while no grid table is loaded, and the latter raise IndexError for a network that has no grid points.", "quantifier": "all decoder states with consistent mask lists, all messages of any length and content, any number of satellites and grid points, all types, sizes and flags", "why_tests_cant": "The position of a value depends on the types and sizes chosen for every earlier satellite: the layouts are exponentially many, and a broadcast of one service uses a handful", "anchors": ["src/cssrlib/cssrlib.py:cssr.decode_cssr_stec", "src/cssrlib/cssrlib.py:cssr.decode_cssr_stec_coeff", "src/cssrlib/cssrlib.py:cssr.decode_cssr_grid", "src/cssrlib/cssrlib.py:cssr.decode_cssr_atmos", "src/cssrlib/cssrlib.py:cssr.decode_local_sat", "src/cssrlib/cssrlib.py:cssr.sval"]}
{"id": "C64", "title": "OSNMA accepts exactly the tag sequences, MACSEQ values, root key messages and public key messages that satisfy the rules", "statement": "In the first sub-frame of a minute, and in any sub-frame with six tags, the tags of a MACK message pass the sequence check exactly when the announced look-up table exists, prescribes that number of tags, and every tag from the second on has the data type of its slot and, for a slot on the sender itself, names the sender; slots of free choice accept anything. (In the second sub-frame no table with four or five tags ever passes, and a table with ten tags passes only with tags in the wrong slots.) MACSEQ passes exactly when the twelve bits after the first tag are the first twelve bits of the MAC over sender, sub-frame time and the information of the freely chosen tags, in order. The number of tags is the number that fit beside the key in 480 bits; tags come from the previous message of the satellite, keys from the previous and the current one. A root key message passes over its settings in any case, its key and signature when its length leaves room for them, and counts as loaded exactly when the hash of header, key part and signature begins with its padding; unknown key sizes and hash functions raise. A public key message stores the key under its number exactly when the announced length is 13 to 16 blocks, the key type is 1, 3 or 4 and fits, the padding is the beginning of the hash of the Merkle root and the key, and the hashes along the four transmitted nodes lead to that root; otherwise nothing changes.", "quantifier": "all decoder states, tag contents, senders, look-up tables, message contents, keys, and any hash, MAC, signature and point decoding functions", "why_tests_cant": "The messages in a test are those of one broadcast with one configuration of keys and one look-up table; that no other message is accepted is a statement about 2^2000 messages per function", "anchors": ["src/cssrlib/osnma.py:osnma.verify_maclt", "src/cssrlib/osnma.py:osnma.verify_macseq", "src/cssrlib/osnma.py:osnma.decode_mack", "src/cssrlib/osnma.py:osnma.decode_dsm_kroot", "src/cssrlib/osnma.py:osnma.decode_dsm_pkr", "src/cssrlib/osnma.py:osnma.verify_pdk", "src/cssrlib/osnma.py:osnma.verify_pdp"]}
{"id": "C65", "title": "OSNMA status: satellite count, position, UTC and return value reflect the verified tags; what happens to delayed tags", "statement": "After any sequence of pages, navigation words and settings fed to a new decoder (with at least one tag required): the number of satellites reported is the number of satellites that have, for some issue of their data, at least the required number of verified tags; a position counts as authenticated exactly when that number is four or more; UTC counts as authenticated exactly when the required number of UTC tags has been verified. A page makes decode return true only if in this very call all fifteen pages were complete, the key chain, the tag sequence and MACSEQ were verified, and the number of verified tags of some entry rose to a sufficient one; no call lowers any number. While no delayed tag on the list is older than 300 s, every one that is exactly 300 s old and verifies with the new key for the satellite that sent it is counted, in order, and the list stays as it is, so that it is counted once more for every further satellite that completes the same sub-frame; tags up to 300 s old are never removed; a tag that stands behind an expired one on the list is passed over, even when it is due.", "quantifier": "all histories of any length, all contents, any hash, MAC and signature functions, any required number of tags \u2265 1, any list of delayed tags", "why_tests_cant": "The flags accumulate over hours of broadcast from many satellites; a test covers one recorded session, and neither repeated counting nor the skipped delayed tag changes its outcome", "anchors": ["src/cssrlib/osnma.py:osnma.decode", "src/cssrlib/osnma.py:osnma.save_auth_nav", "src/cssrlib/osnma.py:osnma.count_valid_sat", "src/cssrlib/osnma.py:osnma.verify_navmsg", "src/cssrlib/osnma.py:osnma.difftime"]}
{"id": "C66", "title": "OSNMA: which navigation data a tag is checked against", "statement": "After any sequence of pages, navigation words and settings fed to a new decoder, the data of a satellite used for tag verification consist, for each word type 1 to 10, of the latest word of that type received from that satellite before the start of the sub-frame before the current one (a sub-frame starts with a word whose time of week is one second past a multiple of thirty); types not received by then are zero, and until the satellite has started two sub-frames all are. A tag on the ephemeris and clock of a satellite is checked against the contents of words 1 to 5 if all five types have been received and the latest words 1 to 4 carry one issue number; otherwise against nothing, and the tag is not evaluated. A tag on UTC data is checked against words 6 and 10 of the transmitting satellite if both types have been received. Splitting an I/NAV page yields the 112 and 16 data bits of its two halves and the 40 bits of the OSNMA field.", "quantifier": "all histories of any length from any number of satellites, all contents of the words, all satellites, any hash, MAC and signature functions", "why_tests_cant": "Words from up to 36 satellites arrive interleaved and incomplete, and sub-frames may be missed for hours; a recorded session shows one order without losses", "anchors": ["src/cssrlib/osnma.py:osnma.save_gal_inav", "src/cssrlib/osnma.py:osnma.gen_gal_inavmsg", "src/cssrlib/osnma.py:osnma.gen_gal_utcmsg", "src/cssrlib/osnma.py:osnma.load_gal_inav"]}
{"id": "C67", "title": "RTCM and IGS SSR: orbit, clock and accuracy messages give every satellite the values at its place", "statement": "Decoding an RTCM or IGS SSR orbit, clock, combined, high-rate clock or user range accuracy message succeeds exactly when the buffer holds the number of records announced in the header. It then stores for every satellite the values of its record (of the last one if it occurs twice): issue, three components and their rates, clock terms, accuracy, each with its sign, scale and not-available code, at the bit position given by the message layout of that constellation; a message whose epoch is later than the last one of its kind removes all older entries first, otherwise entries of other satellites stay. Header data (epoch, update interval, multiple message flag, datum, issue, provider, solution) and the read position come from their places, and nothing else in the decoder changes. All RTCM numbers and IGS sub-types reach the method of their kind with their constellation. A high-rate clock message with more satellites than the last clock message raises an exception.", "quantifier": "all message bodies of any length and content, all constellations, all numbers of records, all decoder states, all RTCM SSR numbers and IGS sub-types", "why_tests_cant": "Layouts differ between six constellations and two standards; tests contain messages of a few of them and cannot cover every header value, repeated satellites, truncated messages or the state left by earlier messages", "anchors": ["src/cssrlib/rtcm.py:rtcm.decode_cssr_orb", "src/cssrlib/rtcm.py:rtcm.decode_cssr_clk", "src/cssrlib/rtcm.py:rtcm.decode_cssr_comb", "src/cssrlib/rtcm.py:rtcm.decode_cssr_ura", "src/cssrlib/rtcm.py:rtcm.decode_cssr_hclk", "src/cssrlib/rtcm.py:rtcm.decode_head", "src/cssrlib/rtcm.py:rtcm.decode_sat", "src/cssrlib/rtcm.py:rtcm.decode_igsssr", "src/cssrlib/rtcm.py:rtcm.decode"]}
{"id": "C68", "title": "RTCM and IGS SSR: code and phase bias messages give every signal of a satellite the values at its place", "statement": "Decoding an RTCM or IGS SSR code or phase bias message succeeds exactly when the buffer holds the records announced by the satellite count and by the signal counts in front of each satellite. It then stores, for every satellite and every signal of its record (the last one where one occurs twice), the bias with its sign, scale and not-available code, and for phase biases the integer indicator, wide-lane indicator, discontinuity counter, yaw angle and yaw rate, under the RINEX name of the signal number of that constellation (numbers without a meaning share one name). A message of a later epoch removes older biases first, otherwise other entries stay. If a record announces more signals than the constellation has, it and everything behind it is dropped although decoding succeeds; messages without such a record are read completely. Header data come from their places and code biases are not changed by phase bias messages or the other way round.", "quantifier": "all message bodies of any length and content, all six constellations, all satellite and signal counts, the three message forms, all decoder states", "why_tests_cant": "The position of every record depends on the signal counts of all earlier ones, so the number of layouts is unbounded; tests contain a few recorded messages and do not cover undefined signal numbers, excessive counts, truncation or state left by earlier messages", "anchors": ["src/cssrlib/rtcm.py:rtcm.decode_cssr_cbias", "src/cssrlib/rtcm.py:rtcm.decode_cssr_pbias", "src/cssrlib/rtcm.py:rtcm.ssig2rsig", "src/cssrlib/rtcm.py:rtcm.decode_head"]}
{"id": "C69", "title": "RINEX observation epochs: every satellite gets the values and flags of its signals in the order of the selection", "statement": "Reading an observation epoch skips lines before the epoch line, then takes exactly as many following lines as the epoch line announces. Satellites of constellations that the header lists and the user selected are returned in the order of the lines; each gets, in the column of every selected signal, the number in the fourteen characters at the position at which the header (last) lists that signal and the loss-of-lock flag behind it, zero where the text is blank or the header does not list the signal. The selection keeps the order given and refuses repeated signals. Automatic replacement exchanges a signal the file does not have for another tracking code of the same constellation, type and band, the last listed one in a fixed order, and leaves available signals alone. The read succeeds exactly if the needed texts are numbers, all lines are there, and every satellite read has as many selected signals of each type as the constellation with the most; otherwise it raises.", "quantifier": "all texts of any number of lines and satellites, all headers, all selections, all accepted number formats", "why_tests_cant": "Rows depend on the combination of header order, selection order, repeated signals, blanks and short lines; test files have one header and a selection with equal numbers of signals per constellation, so misplaced columns or the failure for unequal numbers do not appear", "anchors": ["src/cssrlib/rinex.py:rnxdec.decode_obs", "src/cssrlib/rinex.py:rnxdec.setSignals", "src/cssrlib/rinex.py:rnxdec.getSignals", "src/cssrlib/rinex.py:rnxdec.autoSubstituteSignals"]}
{"id": "C70", "title": "QZSS NMA: received pages and messages lead to exactly the right signature check", "statement": "For every QZSS satellite, three signature pages received in order when no page is pending, followed by the three LNAV or CNAV messages sent 6, 12 and 18 s after the last page (one message 18 s later for CNAV2), lead to exactly one signature check. It uses key number, 512 bit signature and salt carried by those pages over the kept bits of exactly those messages, whatever was received before. A good signature adds one verified message under issue 0 for this satellite only, and lists and counts the satellite once; a bad one or a missing key changes no status. Any other full-length message makes the call succeed, changes no status and nothing collected from other satellites, except that data completed while no signature is complete makes the call raise. After every history the per-system counters are the numbers of listed satellites, each with at least one verified message.", "quantifier": "every history of loads and of full-length messages of any contents from any number of satellites and of all three types; any behaviour of the signature primitive and of the key directory", "why_tests_cant": "The collection depends on the order and spacing of messages of several satellites and message types over time; recorded sessions contain only complete, undisturbed rounds", "anchors": ["src/cssrlib/qznma.py:qznma.decode", "src/cssrlib/qznma.py:qznma.gen_rds", "src/cssrlib/qznma.py:qznma.msg2nav", "src/cssrlib/qznma.py:qznma.verify_qzss_nav"]}
{"id": "C71", "title": "QZSS NMA: loading recorded messages stores the first complete set of each issue", "statement": "Loading the recorded messages of one satellite always succeeds. For every issue number not yet stored, it stores the first set of parts that was complete under this number while going through the messages in order, each part in its latest version at that moment, together with the time of week in its first (I/NAV: fifth) part; an issue without a complete set gets nothing. Complete means: LNAV sub-frames 1 to 3 with equal issue bytes, CNAV types 10, 11 and one with clock parameters with equal reference times, F/NAV pages 1 to 4 and I/NAV words 1 to 5 (noticed when word 5 arrives) with equal issue of data. An issue stored before keeps its contents, where for LNAV and CNAV a message of any type with the same number counts as stored. Nothing changes for other satellites and other message types. All parts of one set in a row are complete whatever messages came before.", "quantifier": "every list of recorded messages of full length in any order, with gaps, repetitions and foreign types, every store left by earlier loads and receptions, all four message types", "why_tests_cant": "Which versions of the parts meet in one set depends on the whole preceding sequence of messages; recorded files contain a few undisturbed hours", "anchors": ["src/cssrlib/qznma.py:qznma.load_navmsg_lnav", "src/cssrlib/qznma.py:qznma.load_navmsg_cnav", "src/cssrlib/qznma.py:qznma.load_navmsg_fnav", "src/cssrlib/qznma.py:qznma.load_navmsg_inav", "src/cssrlib/qznma.py:qznma.chk_gps_lnav", "src/cssrlib/qznma.py:qznma.chk_gps_cnav"]}
{"id": "C72", "title": "Exactly the existing signal codes are accepted", "statement": "A signal code is accepted exactly if it starts with C, L, D or S, continues with a band digit 1 to 9 and either ends there or has an attribute letter that exists for this band. On the bands of GLONASS, Galileo, SBAS, QZSS, BeiDou and NavIC and on the first band of GPS exactly the attributes of the signals of that constellation are accepted and all other characters are rejected; on other bands (among them GPS 2 and 5, whose check is ineffective) every letter that some constellation uses on the band. The value read is band and attribute, for the given constellation. Texts of other lengths are rejected, and the form with constellation letter agrees with the one with a separate constellation.", "quantifier": "every text of any length and characters, every constellation", "why_tests_cant": "The acceptance table is a product of constellations, bands and attributes with a special case for each band; tests use codes that exist, not those that must be rejected", "anchors": ["src/cssrlib/gnss.py:rSigRnx.str2sig", "src/cssrlib/gnss.py:rSigRnx.__init__", "src/cssrlib/gnss.py:uSIG"]}
{"id": "C73", "title": "RTCM broadcast ephemeris messages give the transmitted parameters, with the listed exceptions", "statement": "From every message long enough, at any bit offset, the GPS (1019), QZSS (1044), Galileo F/NAV (1045) and I/NAV (1046) and NavIC (1041) ephemeris decoders give each orbit, clock, health and issue parameter as the number in its field of the standard layout times its unit, the satellite of the number, and reference times in the decoded week; the number of bits consumed is that of the layout. A message built from any values that fit the fields is decoded to these values, and the week is the true one exactly if it lies in the same 1024 weeks as the decoder's time. Exceptions: the NavIC and BeiDou (1042) clock drift rate is computed from the clock offset; the fields of a BeiDou message from the sine correction of the latitude argument on are taken two bits too early (so the root of the semi-major axis is wrong except for four numbers); of GLONASS (1020) y and z of position, velocity and acceleration repeat x and negative numbers are misread, while identity, channel, flags, and both times (the instant with the transmitted Moscow time nearest to the decoder's time) are right; every SBAS ephemeris raises an error.", "quantifier": "every message of sufficient length, every starting bit, all field values that fit, every decoder time, every true week", "why_tests_cant": "About 30 packed fields of a dozen widths and units per system; tests decode one recorded message per system and do not check every field, sign and week", "anchors": ["src/cssrlib/rtcm.py:rtcm.decode_gps_eph", "src/cssrlib/rtcm.py:rtcm.decode_glo_eph", "src/cssrlib/rtcm.py:rtcm.decode_gal_eph", "src/cssrlib/rtcm.py:rtcm.decode_qzs_eph", "src/cssrlib/rtcm.py:rtcm.decode_bds_eph", "src/cssrlib/rtcm.py:rtcm.decode_irn_eph", "src/cssrlib/rtcm.py:rtcm.decode_sbs_eph", "src/cssrlib/rtcm.py:rtcmUtil.adjustweek"]}
{"id": "C74", "title": "RTCM station messages give exactly the transmitted station, position, descriptions and biases", "statement": "A frame with an antenna or receiver description (1007, 1008, 1033), station position (1005, 1006, 1032), GLONASS bias (1230) or text message (1029) with any values that fit the fields is decoded to exactly these values: texts of any length (also empty ones) in their order, coordinates in metres with sign, antenna height, the kind of station, each GLONASS bias that is present at its place and zero for the others. All other attributes keep their values and the position after the message is its end. A last text that is cut off by the end of the message is accepted as far as it goes.", "quantifier": "all field values, texts of up to 255 arbitrary bytes, all subsets of biases, any attributes before", "why_tests_cant": "The fields after a text start where the text ends, which differs for every receiver and antenna; tests use one station and no empty text, no virtual station and no partial bias mask", "anchors": ["src/cssrlib/rtcm.py:rtcm.decode_ant_desc", "src/cssrlib/rtcm.py:rtcm.decode_sta_pos", "src/cssrlib/rtcm.py:rtcm.decode_glo_bias", "src/cssrlib/rtcm.py:rtcm.decode_unicode_text"]}
{"id": "C75", "title": "Epochs of RTCM messages: the multi-signal time field carries the epoch to half a millisecond, in the week of the clock of the system", "statement": "The time field written for an epoch has 30 bits and stands for the reading of the clock of the system at the epoch (Moscow time for GLONASS, BDT for BeiDou, GPS time for the others) rounded to the nearest millisecond; the week given with it is the week of that clock reading. Decoding the field in this week gives the epoch back exactly if it is a whole number of milliseconds (GLONASS: and not in an inserted leap second) and otherwise the clock reading to half a millisecond. Decoding in another week shifts the clock reading by whole weeks. A decoder that is given the GPS week is therefore one week late for BeiDou in the first 14 seconds of a GPS week, and one week early for GLONASS in the last three hours less the leap seconds, and right at all other epochs and for all other systems. The epoch taken from a frame is that of the field for multi-signal messages, the seconds of the GPS week for SSR messages of the systems other than GLONASS and for network messages of GPS, Galileo and QZSS, and none for messages of other kinds. Exceptions: for GLONASS SSR messages the leap seconds are added twice; for IGS SSR messages (4076) the seconds are taken from the 20 bits after the message number, in which version, kind and only nine bits of the time are; for network messages of BeiDou with less than 14 seconds the epoch is one week early.", "quantifier": "all systems, all epochs after the origin of GPS time, all field values and weeks, all message numbers", "why_tests_cant": "The slips happen in 14 seconds or three hours of a week and on GLONASS and BeiDou only; the recorded data of the tests lie elsewhere in the week", "anchors": ["src/cssrlib/rtcm.py:rtcm.decode_msm_time", "src/cssrlib/rtcm.py:rtcme.encode_msm_time", "src/cssrlib/rtcm.py:rtcm.decode_time", "src/cssrlib/rtcm.py:rtcm.decode_nrtk_time"]}
{"id": "C76", "title": "BeiDou D1 and D2 navigation messages", "statement": "The BeiDou D1 decoder of the raw navigation messages accepts messages with the preamble and a sub-frame number up to 3, and a call returns an ephemeris exactly if it was given such a message and a sub-frame 1, 2 and 3 of that satellite has been given to it; the ephemeris holds the fields of the last ones, at the positions of the information bits (26 in the first word, 22 in the others, the parity bits do not matter), scaled as in the interface specification. There is no check that the three sub-frames belong together. The D2 decoder returns an ephemeris exactly if the message is a page 1 to 10 of sub-frame 1 and pages 1 and 3 to 10 have been given, with times of pages 3 to 10 three seconds apart (page 1 is not checked against page 3); its fields are those of the last pages, with three exceptions: the mean anomaly loses ten bits and is right only for -256 to 255 units, the last four bits of the root of the semi-major axis are those of the second group delay, and an eccentricity of 0.25 or more is negative. The reference times are in BeiDou time while the time of transmission is in GPS time; their week is the broadcast one if the time of ephemeris is within half a week of the time of transmission in the same week, otherwise the correction has the wrong sign and the two times are more than one and a half weeks apart.", "quantifier": "all sequences of messages of BeiDou satellites (any bits, at least 40 or 20 bytes), all parity bits, all field values", "why_tests_cant": "Which sub-frames an ephemeris is made of depends on the whole history of messages; the tests decode a few recorded files without checking the elements.", "anchors": ["src/cssrlib/rawnav.py:RawNav.decode_bds_d1", "src/cssrlib/rawnav.py:RawNav.decode_bds_d2", "src/cssrlib/rawnav.py:RawNav.getbits3"]}
{"id": "C77", "title": "CNAV and CNAV/2 navigation messages", "statement": "The CNAV decoder of the raw navigation messages works on messages of GPS and QZSS satellites that carry the preamble and the number of the satellite they are given for; messages of other systems are ignored. It keeps, for each satellite, the last message of type 10, of type 11 and of a clock type (30 to 37, and 61 for QZSS). A call returns an ephemeris exactly if its message is of a known type (10, 11, 12, 15, 30 to 37, 60, 61), all three are kept, their reference times are equal and the clock message is of type 30 or 61; the ephemeris holds the fields of the three messages scaled as in the interface specification, with reference semi-major axis of GPS or QZSS, and its reference times are those nearest to the time of transmission. The order of the messages and messages of other satellites do not matter. The CNAV/2 decoder returns, for every message, an ephemeris exactly if its third sub-frame is of page 1 or 61, with the fields of the interface specification; its week is the broadcast one in the first half of the week and the following one in the second half (from 304447 s), so that in the second half the reference times are a week late.", "quantifier": "all sequences of CNAV messages of GPS and QZSS satellites (any bits, at least 304 bits), all CNAV/2 messages of at least 1480 bits and all satellites, all field values", "why_tests_cant": "Which messages an ephemeris is made of depends on the whole history of messages; the tests decode a few recorded files without checking the elements.", "anchors": ["src/cssrlib/rawnav.py:RawNav.decode_gps_cnav", "src/cssrlib/rawnav.py:RawNav.decode_gps_cnav2", "src/cssrlib/rawnav.py:RawNav.decode_gps_cnav_gd"]}
{"id": "C78", "title": "B-CNAV1, B-CNAV2 and B-CNAV3 navigation messages", "statement": "The B-CNAV1 decoder of the raw navigation messages of BeiDou returns an ephemeris exactly if the issue number of the ephemeris is the last eight bits of that of the clock and the third sub-frame is page 1; its values are the fields of the interface specification. The B-CNAV2 decoder keeps, for each satellite, the last messages of the types 10, 11, 30, 34 and 40; a call returns an ephemeris exactly if its message is of one of these types, the types 10, 11, 30 and 40 are kept, the times of those of the types 10, 11 and 30 follow each other (3 seconds apart), and the issue numbers agree. The B-CNAV3 decoder keeps the last messages of the types 10, 30 and 40; a call returns an ephemeris exactly if its message is of one of these types, the types 10 and 30 are kept, and the time of the latter is one second after that of the former. The values are those of the fields of these messages. Reference times are in the broadcast week and converted to GPS time, the time of transmission stays in BeiDou time, 14 seconds behind; the time of ephemeris from B-CNAV3 is in January 2006, the start of BeiDou time, whatever the broadcast week. Accuracy indices of the clock and the integrity index are read as signed numbers.", "quantifier": "all B-CNAV1 messages of at least 880 bits; all sequences of B-CNAV2 messages of 36 to 40 bytes and of B-CNAV3 messages of 60 to 64 bytes of BeiDou satellites, any bits; all field values", "why_tests_cant": "Which messages an ephemeris is made of depends on the whole history of messages; the tests decode a few recorded files without checking the elements.", "anchors": ["src/cssrlib/rawnav.py:RawNav.decode_bds_b1c", "src/cssrlib/rawnav.py:RawNav.decode_bds_b2a", "src/cssrlib/rawnav.py:RawNav.decode_bds_b2b", "src/cssrlib/rawnav.py:RawNav.decode_bds_cnav_eph1", "src/cssrlib/rawnav.py:RawNav.decode_bds_cnav_eph2", "src/cssrlib/rawnav.py:RawNav.decode_bds_cnav_clk", "src/cssrlib/rawnav.py:RawNav.decode_bds_cnav_sisai"]}
{"id": "C79", "title": "NavIC navigation messages", "statement": "The decoder of the sub-frames of NavIC keeps, for each satellite, the last sub-frame of each number. A call with one of the first three sub-frames returns an ephemeris exactly if a second sub-frame is kept and its count of 12-second intervals is one more than that of the kept first sub-frame (a first sub-frame not yet received counts as one of zeros); the values are the fields of the interface specification of these two. The week of the reference times has the broadcast last ten bits and is the one nearest to the current week given by the caller; the time of transmission is within half a week of the time of ephemeris if the current week has those bits. The decoder of the messages on L1 returns an ephemeris exactly if the satellite number in the message is that of the satellite, with the values of the fields, whatever the third sub-frame; both its reference times are in the broadcast week, and a negative accuracy index counts from the end of the table.", "quantifier": "all sequences of sub-frames of at least 40 bytes of NavIC satellites with any current week; all messages on L1 of at least 1502 bits, any bits; all field values", "why_tests_cant": "Which sub-frames an ephemeris is made of depends on the whole history of sub-frames; the tests decode a few recorded files without checking the elements.", "anchors": ["src/cssrlib/rawnav.py:RawNav.decode_irn_lnav", "src/cssrlib/rawnav.py:RawNav.decode_irn_l1nav", "src/cssrlib/rawnav.py:RawNav.urai2sva"]}
{"id": "C80", "title": "GLONASS and SBAS navigation messages", "statement": "The decoder of FDMA strings of GLONASS keeps, for each satellite, the last string of each number with the time of its call. A call with a string 1 to 5 returns an ephemeris exactly if strings 1 to 4 are kept and each was received two seconds (in whole seconds) after the one before it; the values are the fields of the interface specification in sign and magnitude, those of string 5 being zero as long as there is none. The time of ephemeris and of the frame have the broadcast time of day in Moscow and are within half a day of the time of the call, and are converted from UTC to GPS time. The decoders of the CDMA messages L1OC and L3OC keep the last messages of the types 10, 11 and 12 (on L3 also 16 and 25) with the right preamble; a call with one of these types returns an ephemeris exactly if the types 10, 11 and 12 are kept, whatever their times; its values are the fields, except that the last six bits of the second component of the velocity on L1 are lost. Their times are those of the calendar: the day in the four-year interval from 1996 with the time of day in Moscow. An SBAS message gives an ephemeris exactly if it has one of the three preambles and the type 9; its reference time has the broadcast time of day and is within half a day of the time of the call.", "quantifier": "all sequences of FDMA strings of at least 12 bytes of GLONASS satellites with any times of week, of L1OC messages of at least 234 bits and of L3OC messages of at least 276 bits; all SBAS messages of at least 226 bits; all field values, all days and four-year intervals", "why_tests_cant": "Which strings an ephemeris is made of depends on the whole history of strings and their times; the tests have no GLONASS or SBAS raw messages with known elements.", "anchors": ["src/cssrlib/rawnav.py:RawNav.decode_glo_fdma", "src/cssrlib/rawnav.py:RawNav.decode_glo_l1oc", "src/cssrlib/rawnav.py:RawNav.decode_glo_l3oc", "src/cssrlib/rawnav.py:RawNav.decode_glo_cdma", "src/cssrlib/rawnav.py:RawNav.decode_sbs_l1", "src/cssrlib/rawnav.py:RawNav.getbitg", "src/cssrlib/rawnav.py:gep2time"]}
{"id": "C81", "title": "SBAS ranging, almanac, service, covariance and ephemeris messages", "statement": "Every SBAS message of L1, of L5 and of the transmissions of QZSS changes only what its type is about, and the corrections (C26, C61) are decoded the same way within the whole decoder. A ranging message (9) replaces the ephemeris of the transmitter if that is known; the degradation parameters (10), those of the dual-frequency service (37), the almanacs (17, 47), the covariances (28, 32, 40) and the ephemerides (39, 40) are the fields of the specification in their units, the largest value of a signed field meaning that there is none. The ephemeris held after any sequence of messages is the last first part (39), completed by the last second part (40) received after it with its issue. Covariances are symmetric and positive semidefinite; they are the transmitted ones exactly if E24 equals E23. Exceptions: the epoch of the almanacs of type 17 is made of bits of the third satellite; the regions of a service message (27) are read every 34 instead of 35 bits, so only the first is right; covariances of type 28 go to the satellite after the one meant; the satellite of an ephemeris is a GPS or GLONASS one; the issue of the types 34 to 36 is compared with bits ten places before its field.", "quantifier": "all messages of at least 230 bits of any source and transmitter, all field values, all states, all sequences of messages with any reception times", "why_tests_cant": "The tests have no files of these message types; bit positions, pairing of parts and which satellite gets a value depend on all messages received.", "anchors": ["src/cssrlib/sbas.py:sbasDec.decode_cssr", "src/cssrlib/sbas.py:sbasDec.decode_sbas_ranging", "src/cssrlib/sbas.py:sbasDec.decode_sbas_degradation_param", "src/cssrlib/sbas.py:sbasDec.decode_sbas_almanac", "src/cssrlib/sbas.py:sbasDec.decode_sbas_service", "src/cssrlib/sbas.py:sbasDec.decode_cov", "src/cssrlib/sbas.py:sbasDec.decode_sbas_cov", "src/cssrlib/sbas.py:sbasDec.decode_dfmc_obad", "src/cssrlib/sbas.py:sbasDec.decode_dfmc_eph_mt39", "src/cssrlib/sbas.py:sbasDec.decode_dfmc_eph_mt40", "src/cssrlib/sbas.py:sbasDec.decode_dfmc_alm", "src/cssrlib/sbas.py:sbasDec.decode_tvs_mc", "src/cssrlib/sbas.py:sbasDec.decode_sbas_utc"]}
{"id": "C82", "title": "Grid selection and interpolation of local corrections", "statement": "The network used is that of the grid point nearest to the rover (the first of several equally near). If that point is at least 5 km away, the points used are all points of its network when these are fewer than four, otherwise the three nearest and, if there is one, the nearest further point lying on the rover's side of both lines from the nearest point to the second and to the third; their weights are positive, add up to one and are inversely proportional to their distances, so that an interpolated residual never leaves the range of the values at the points used, and is invalid if one of these is. The tropospheric correction and the slant ionospheric correction of every satellite of the network are the sum of the terms announced: the polynomial in the offset from the first point of the network, and the weighted residuals of the points used, numbered from one. Exception: within 5 km of a grid point that point is selected with weight one, but every correction with a residual term then raises instead of using it. The number of points reported is four also when only three are used.", "quantifier": "all grid tables, all positions (given as offsets and distances), all orders of equally near points, all coefficients, residuals, flags and offsets", "why_tests_cant": "The tests use one receiver position, far from any grid point; selection and weights depend on the geometry of the whole table.", "anchors": ["src/cssrlib/cssrlib.py:cssr.find_grid_index", "src/cssrlib/cssrlib.py:cssr.get_dpos", "src/cssrlib/cssrlib.py:cssr.get_trop", "src/cssrlib/cssrlib.py:cssr.get_stec"]}
{"id": "C83", "title": "Merging two sets of corrections, and their age", "statement": "Merging the corrections of a second decoder into a first one is refused, without any change, when the two are of different facilities. Otherwise, if it returns, the satellites only the second has are appended in its order with their signals, and in every network the satellites only the second has there are appended and get every value the second holds for them, while nothing held before changes; merging the same corrections again changes nothing. The age check replaces exactly the clock corrections older than the limit (30 s, for SBAS, DGPS and PVS 120 s) by zero and the orbit corrections older than 120 s by zero with issue -1, for the satellites listed; it raises exactly if one of these never had a correction. Exceptions: merging raises when a network of the second has a new satellite but never had a clock correction; corrections kept outside a network are never merged; the number of satellites of a system is increased at another index than the one the mask message uses, except for GPS, BeiDou and SBAS.", "quantifier": "all pairs of states, all networks and satellites, all correction values, all times and ages", "why_tests_cant": "No test merges decoders or ages corrections; the result depends on which tables exist in both objects.", "anchors": ["src/cssrlib/cssrlib.py:cssr.merge_cssr", "src/cssrlib/cssrlib.py:cssr.check_validity", "src/cssrlib/sbas.py:sbasDec.check_validity", "src/cssrlib/dgps.py:dgpsDec.check_validity", "src/cssrlib/cssr_pvs.py:cssr_pvs.check_validity"]}
{"id": "C84", "title": "RTCM grid definition and tropospheric correction: encoder and decoder agree", "statement": "A tropospheric correction message with residuals written by the encoder is read back by the decoder, up to the last bit: mapping function, polynomial terms and grid point residuals are the nearest values the message can carry (or not available), at the same point numbers, with the same time, provider, solution and issue, in the network of the message; nothing else changes. A grid definition of type 0 is read back with as many points, numbered from the offset on, the k-th point less than k+1 units (0.001 degree, 12.5 m) away, and exactly if the points are multiples of the units. Exceptions: a message without residuals, which the encoder writes, cannot be decoded; the flag that tells users of the network that a troposphere is available is not set; network numbers above 32 raise although the message allows 1023; a grid of type 1 loses the heights, numbers the points after the first one from 0 on and cannot be decoded when the offset is larger than the number of relative points; no grid of type 2 can be decoded.", "quantifier": "all networks, coefficients, residual lengths and counts, all grids, all decoder states and buffer positions", "why_tests_cant": "No test encodes these messages; rounding, accumulated truncation and the residual layout depend on every value and length.", "anchors": ["src/cssrlib/rtcm.py:rtcm.decode_ssr_grid", "src/cssrlib/rtcm.py:rtcm.decode_ssr_trop", "src/cssrlib/rtcm.py:rtcme.encode_ssr_grid", "src/cssrlib/rtcm.py:rtcme.encode_ssr_trop", "src/cssrlib/rtcm.py:rtcme.encode_head", "src/cssrlib/rtcm.py:rtcm.decode_head"]}
{"id": "C85", "title": "RTCM regional ionospheric correction: encoder and decoder agree up to the order of satellites", "statement": "Every regional ionospheric correction message (GPS, GLONASS, Galileo, BeiDou, QZSS) written by the encoder is read by the decoder up to its last bit, in the network of the message. The decoded satellites are those of the constellation that have coefficients, in ascending order. The coefficients (with gradients exactly if some satellite of the message is of a type above 0) are the nearest values the message can carry, or not available; the residual at every grid point is the slant delay residual, plus the second-order terms relative to the first grid point of the network if the first of these coefficients is not zero, cut off towards zero to 2 mTECU. A message without polynomial or residual part leaves the earlier ones in place, and nothing else of the network changes. The records are taken for the satellites in ascending order while the encoder writes them in the order in which the coefficients were entered: with ascending entry each satellite keeps its values, otherwise they are attributed to other satellites. Residuals can only be encoded when every satellite has at least four coefficients, so decoded corrections cannot be encoded again; a grid number the decoder has no network for raises.", "quantifier": "all satellites, coefficient and residual tables, grids, numbers of grid points and offsets, all decoder states and buffer positions", "why_tests_cant": "The shared satellite mask, both optional parts and the values of every satellite and grid point interact; no test encodes this message, and an example with ascending satellites hides the order problem.", "anchors": ["src/cssrlib/rtcm.py:rtcm.decode_ssr_iono", "src/cssrlib/rtcm.py:rtcme.encode_ssr_iono", "src/cssrlib/rtcm.py:rtcme.encode_head", "src/cssrlib/rtcm.py:rtcm.decode_head", "src/cssrlib/cssrlib.py:cssr.decode_mask"]}
{"id": "C86", "title": "RTCM code and phase bias messages: encoder and decoder agree", "statement": "Every code bias message (1059, 68, 69, 70) and phase bias message (85, 87, 88, 89) for GPS, Galileo, BeiDou or QZSS that the encoder writes is read by the decoder up to its last bit, with epoch, update interval, issue, provider and solution of the encoder. The decoder then has, for each satellite of the constellation and each of its signals, under the name of that signal, the code bias cut off towards zero to 0.01 m, or the phase bias rounded to 0.0001 m or not available, its integer indicator and its discontinuity counter; the satellites of the message are listed; in a new epoch all other entries are gone, in the same epoch they stay. Yaw angle and rate come back cut off to 1/256 and 1/8192. This holds when the satellite list has as many satellites of the constellation as there are with code biases, no satellite has more signals than its constellation defines, and the yaw flag is set exactly if the satellites have a yaw angle; counterexamples are given for the first and the last condition. A code bias that is not available stops the encoder.", "quantifier": "all satellites, signals and values, all encoder states and buffers in which encoding succeeds, all decoder states with a list of satellites or an older epoch", "why_tests_cant": "Position of each field depends on the numbers of satellites and signals before it; tests with one value or a single satellite do not see exchanged or shifted records. No test encodes these messages.", "anchors": ["src/cssrlib/rtcm.py:rtcme.encode_cssr_cbias", "src/cssrlib/rtcm.py:rtcme.encode_cssr_pbias", "src/cssrlib/rtcm.py:rtcme.encode_head", "src/cssrlib/rtcm.py:rtcmUtil.rsig2code", "src/cssrlib/rtcm.py:rtcm.decode_cssr_cbias", "src/cssrlib/rtcm.py:rtcm.decode_cssr_pbias"]}
{"id": "C87", "title": "Editing of observations before the filter", "statement": "The editing accepts, in ascending order, exactly the satellites all of whose signals are kept. A signal is kept if its satellite is observed, not excluded, has an orbit and a clock, is healthy and not below the elevation mask, if the signal has no loss of lock, a range and a phase and a sufficient or unknown strength, and, for the first two signals, if the geometry-free combination of the two phases has not jumped by more than the threshold since it was last remembered; all other signals are flagged. The combination is remembered for each usable satellite with two phases, for no other. The editing does not raise if the signals and channels of the usable satellites are known, except for the last satellite number, with which it never returns. Editing the same epoch again finds no cycle slip; since relative positioning edits the rover twice, its flags never contain a jump of the combination, and they never depend on the base, which only removes satellites from the common list.", "quantifier": "all observation epochs, options, thresholds, numbers of signals and remembered combinations", "why_tests_cant": "Each test has a few satellites without slips; the loss of slips in relative positioning and the last satellite are silent or rare; the combination of conditions per signal cannot be enumerated.", "anchors": ["src/cssrlib/pppssr.py:pppos.qcedit", "src/cssrlib/rtk.py:rtkpos.base_process", "src/cssrlib/gnss.py:rSigRnx.isGPS_PY", "src/cssrlib/gnss.py:rSigRnx.wavelength"]}
{"id": "C88", "title": "Time update of the positioning filter", "statement": "The time update moves the position by velocity times elapsed time in kinematic mode, propagates the covariances accordingly and adds the process noise of the elapsed time to the variances; with non-negative elapsed time and noise the covariance matrix stays symmetric and positive semidefinite. Of a satellite of an observed constellation whose outage exceeds the limit or which the editing flagged, ambiguity and slant delay are started anew: they get the value of this epoch's measurements, or 0; states that were 0 get it too; all others are kept. A state started anew has no covariance with any other and the initial variance (0 if its value is 0); all other states and covariances are as predicted. The outage counter counts up, and starts from 0 when an ambiguity is dropped. From measurements without error the values are exactly the slant delay and the ambiguity. A flagged satellite, in particular one not observed in a single epoch, loses its states at once whatever the permitted outage. A GLONASS satellite without channel stops the update when slant delays are not estimated.", "quantifier": "all states, covariance matrices, outage counters, observations, numbers of signals and options of the documented layout", "why_tests_cant": "The state has several hundred entries; exchanged or forgotten entries show only as slow convergence; positive semidefiniteness is a statement about all vectors.", "anchors": ["src/cssrlib/pppssr.py:pppos.udstate", "src/cssrlib/pppssr.py:pppos.initx", "src/cssrlib/pppssr.py:pppos.IB", "src/cssrlib/pppssr.py:pppos.II", "src/cssrlib/gnss.py:rSigRnx.frequency"]}
{"id": "C89", "title": "Differenced measurements and their design matrix", "statement": "The measurement model gives every difference between two satellites of a constellation the coefficients: difference of the lines of sight for the position, difference of the wet mapping for the zenith delay, plus and minus the squared frequency ratio for the slant delays (negative for phases), plus and minus the wavelength for the two ambiguities of the phase; all other coefficients are 0. The residual is the measured difference (with a base station also differenced between receivers) minus what the estimated states account for by exactly these coefficients. Receiver clocks cancel, and with measurements without error the residual is 0. The exception are satellites of different frequencies (GLONASS): the residual then contains the wavelength difference times the ambiguity of the second satellite and, because one frequency ratio is used for both, the difference of the ratios times the slant delay of the reference. A GLONASS satellite of unknown channel stops the processing even when it is edited.", "quantifier": "all observations, signals, satellites, states, lines of sight, mapping values and GLONASS channels in the documented layout, with and without base", "why_tests_cant": "A wrong coefficient or residual of one state only slows or biases convergence; agreement of residual and design matrix is an identity over several hundred states for every pair of satellites.", "anchors": ["src/cssrlib/pppssr.py:pppos.sdres", "src/cssrlib/pppssr.py:pppos.IB", "src/cssrlib/pppssr.py:pppos.II", "src/cssrlib/pppssr.py:pppos.IT", "src/cssrlib/gnss.py:rSigRnx.frequency", "src/cssrlib/gnss.py:rSigRnx.wavelength"]}
{"id": "C90", "title": "Status of the positioning solution", "statement": "An epoch is processed when it has observations, at least six satellites with position and at least six left after editing; otherwise it is left out: nothing of the solution changes, neither states nor fixed solution, status, time, use marks or outage counters. After a processed epoch the solution has the time of the observations and the status float or fixed - fixed exactly when ambiguity resolution is enabled and succeeds, and the fixed solution is then the one just resolved - whatever the size of the residuals. The number of satellites used counts the satellites left by the editing that took part in a phase difference of this or of any earlier epoch: use marks are never taken back, and the outage counters of such satellites are set to 0. A left out epoch keeps the status, so what is stored for it is the previous solution under the new time, still as fixed if it was, for any number of epochs.", "quantifier": "all stages of the processing (arbitrary functions), states, sequences of epochs, numbers of signals and resolution modes", "why_tests_cant": "Statements about all sequences of epochs; a stale status shows only in outages, which test data sets hardly contain.", "anchors": ["src/cssrlib/pppssr.py:pppos.process", "src/cssrlib/pppssr.py:pppos.valpos", "src/cssrlib/pppssr.py:pppos.sdres", "src/cssrlib/utils.py:process.save_output"]}
{"id": "C91", "title": "Signal biases and undifferenced residuals", "statement": "Every range and phase used in precise positioning is corrected by the bias of its own signal, or if that is missing of the signal of the same band with attribute X, or otherwise by nothing; L2W of GPS takes the bias of L2P whenever a Galileo HAS correction has one. The biases of the network are added to the global ones, and the sum is taken with opposite sign for QZSS CLAS, BeiDou PPP and PVS; with Bias-SINEX the bias is the negative stored value in metres and missing ones are invalid. A satellite has residuals exactly when it is not edited, has corrections of the network if one is used, has no invalid bias, is above the mask and has antenna corrections; otherwise all its residuals are 0. Its residuals are the measurement minus distance, relativistic effect, satellite clock, troposphere, antenna corrections, slant delay (added for ranges, subtracted for phases, only inside a network) and wind-up, plus the bias, so that measurements without error leave exactly the receiver clock and, for phases, wavelength times ambiguity. The result does not depend on the order of the satellites nor on earlier lookups, although a lookup changes the stored HAS corrections.", "quantifier": "all tables of biases, services, networks, numbers and orders of satellites and signals, measurements and geometries", "why_tests_cant": "A wrong sign or attribute rule gives decimetre errors for a single service; the tests need recorded corrections and tolerate metres.", "anchors": ["src/cssrlib/pppssr.py:pppos.find_bias", "src/cssrlib/pppssr.py:pppos.zdres", "src/cssrlib/gnss.py:rSigRnx.toAtt"]}
{"id": "C92", "title": "Position, velocity and clock from broadcast ephemerides", "statement": "For every mean anomaly and every eccentricity below 1 the eccentric anomaly used meets Kepler's equation to e times the larger of 1e-12 and e^10; the exact solution exists, is unique, and the position returned is within 2A/(1-e) times that step of the position of the exact solution (0.1 mm for e = 0.02). The position lies in the plane given by node and inclination at the distance and argument of latitude with their harmonic corrections; without corrections it runs on the ellipse with axis A and eccentricity e and a focus in the centre of the earth. For BeiDou geostationary satellites distances are kept to 1e-14 by the additional rotation. Without harmonic corrections, with constant axis and mean motion and except for geostationary satellites the velocity returned is the time derivative of the position; with harmonic corrections it is not. The clock returned is the polynomial plus the relativistic effect, which equals -2 (r.v)/c^2 of the returned position and velocity. Differences to the reference time of more than a week are reduced by one week, others by nothing. The position from an almanac is that of the ephemeris with the same elements and no corrections; its clock lacks the relativistic effect.", "quantifier": "all real ephemerides with 0 <= e < 1, times, constellations and satellites", "why_tests_cant": "Tests compare single epochs with recorded positions to metres; convergence, the shape of the orbit and velocity as derivative are statements about all ephemerides and times.", "anchors": ["src/cssrlib/ephemeris.py:eph2pos", "src/cssrlib/ephemeris.py:eccentricAnomaly", "src/cssrlib/ephemeris.py:eph2clk", "src/cssrlib/ephemeris.py:eph2rel", "src/cssrlib/ephemeris.py:dtadjust", "src/cssrlib/ephemeris.py:sys2MuOmega", "src/cssrlib/ephemeris.py:alm2pos"]}
{"id": "C93", "title": "GLONASS orbits", "statement": "Along every motion that follows the accelerations used, the energy of the satellite in the frame turning with the earth (kinetic, centrifugal, potential of an oblate earth with the constants of PZ-90) changes by the power of the broadcast acceleration only, and its angular momentum about the axis of the earth changes by the torque of that acceleration only; both are constant without it. One integration step is of fourth order: on linear equations it multiplies by the exponential series up to the fourth power, on rates that are cubic polynomials of time it is exact. The evaluation ends for every time before or after the ephemeris and every step length above a nanosecond: it takes as many whole steps as fit, in the right direction, and one step for the rest unless that is below a nanosecond; at the time of the ephemeris the broadcast state is returned. The clock for a time of transmission is exact up to the third power of the drift. The relativistic effect is minus the rate of the squared distance over the squared speed of light.", "quantifier": "all real ephemerides, times, step lengths, states and motions", "why_tests_cant": "Tests compare a few epochs with recorded positions; conservation laws, the order of the integration and its end are statements about all states and times.", "anchors": ["src/cssrlib/ephemeris.py:deq", "src/cssrlib/ephemeris.py:glorbit", "src/cssrlib/ephemeris.py:geph2pos", "src/cssrlib/ephemeris.py:geph2clk", "src/cssrlib/ephemeris.py:geph2rel"]}
{"id": "C94", "title": "Positions and directions", "statement": "The conversion to east, north and up is a rotation whose directions are those of growing longitude, latitude and height; its inverse is the transposed matrix and lengths are kept. A unit vector is recovered exactly from azimuth and elevation, the azimuth lying between -180 and 180 degrees. The distance to a satellite is the geometric distance plus, to first order, its growth by the rotation of the earth during the time of flight; the direction is a unit vector from receiver to satellite. Positions of height 0 lie on the WGS-84 ellipsoid and heights are measured along its normal. Coordinates computed from a position at least half an earth radius from the centre take at most six of the thousand passes allowed and reproduce the position to three micrometres, on the axis of the earth too; coordinates above -3000 km are reproduced to three micrometres in height, 1e-12 rad in latitude and exactly in longitude. With degrees the argument of the caller is converted in place. Degrees, minutes and seconds make up the size of the angle; the sign is that of the degrees, and is lost between -1 and 0 degrees.", "quantifier": "all real positions, coordinates, directions and angles", "why_tests_cant": "Tests convert single points back and forth; the number of passes, the error bound for every point and the derivative character of the frame are statements about all positions.", "anchors": ["src/cssrlib/gnss.py:geodist", "src/cssrlib/gnss.py:vnorm", "src/cssrlib/gnss.py:xyz2enu", "src/cssrlib/gnss.py:enu2xyz", "src/cssrlib/gnss.py:ecef2pos", "src/cssrlib/gnss.py:pos2ecef", "src/cssrlib/gnss.py:ecef2enu", "src/cssrlib/gnss.py:satazel", "src/cssrlib/gnss.py:deg2dms"]}
{"id": "C95", "title": "Dilution of precision", "statement": "The result depends only on the satellites at or above the mask angle, not on their order nor on the direction of north; it is None when these are fewer than four. The four values are the standard deviations of the least squares solution for unit measurement errors: position with clock, position, horizontal and vertical, in this order, where the least squares solution reproduces exact data. The square of the position value is the sum of the squares of the horizontal and vertical ones. Adding satellites or lowering the mask never makes any value larger and never makes a regular sky singular. With n satellites the position value is at least 3/sqrt(n) and the value with clock at least sqrt(10/n). A sky with all satellites at one elevation raises an exception.", "quantifier": "all skies (lists of azimuth and elevation of any length) and mask angles", "why_tests_cant": "Tests check single skies; monotonicity in the satellites, invariance under rotation and the lower bound are statements about all skies.", "anchors": ["src/cssrlib/gnss.py:dops_h", "src/cssrlib/gnss.py:dops"]}
{"id": "C96", "title": "Ionospheric delays", "statement": "For an ionosphere at a height of at most 0.064 earth radii (350 km as used with SBAS) and elevations between 0 and 90 degrees the line of sight meets the sphere of the ionosphere in the pierce point returned, beyond a pole too, and the slant factor is the inverse cosine of the angle to the vertical there; an answer is given unless the pierce point is a pole. In a thicker ionosphere the longitude may be wrong by half a turn. The broadcast model takes the local time within the day, gives five nanoseconds at night and up to the amplitude more by day, the largest value at 14 hours, never less than 1.5 m in total whatever the coefficients; the slant factor is between 1 and 3.4 and grows towards the horizon. The broadcast model is used where asked for, where there are no SBAS corrections and where these give no delay; with SBAS and a receiver below -100 m a TypeError is raised.", "quantifier": "all real positions, directions, heights, times and coefficients", "why_tests_cant": "Tests evaluate single directions; the pierce point on the line of sight for every direction and the bounds for all coefficients are universal statements.", "anchors": ["src/cssrlib/gnss.py:ionppp", "src/cssrlib/pntpos.py:ionKlobuchar", "src/cssrlib/pntpos.py:ionmodel"]}
{"id": "C97", "title": "Tropospheric delays", "statement": "The coefficient tables are read on a straight line between the nodes at 15, 30, 45, 60 and 75 degrees and constant outside. For every day, latitude and height between -1 and 20 km Niell's mapping functions are one towards the zenith; the wet one is between one and that of a flat earth and decreases with elevation, the hydrostatic one too from height zero on; both are zero below the horizon or outside these heights; the south has the seasons of the north half a year later. The SBAS mapping function is one at the zenith, decreasing, below that of a flat earth and below 22.4 at the horizon; Hopfield's exceeds one at the zenith by less than a millionth. The hydrostatic delays of Saastamoinen and SBAS and the wet one of SBAS are positive and fall with height; Saastamoinen's wet delay is proportional to humidity. Only the SBAS model depends on the elevation, by its mapping function; with no model everything is zero.", "quantifier": "all real days, latitudes, heights, elevations and humidities", "why_tests_cant": "Tests evaluate single places; shape and bounds for every place, day and elevation are universal statements over the reals.", "anchors": ["src/cssrlib/gnss.py:tropmapf", "src/cssrlib/gnss.py:tropmodel", "src/cssrlib/gnss.py:interpc", "src/cssrlib/gnss.py:tropmapfNiell", "src/cssrlib/gnss.py:tropmodelSaast", "src/cssrlib/gnss.py:tropmodelSBAS", "src/cssrlib/gnss.py:tropmapfHpf", "src/cssrlib/gnss.py:atmosParam"]}
{"id": "C98", "title": "RTCM integrity messages", "statement": "For every content that fits the fields, wherever the message lies in the buffer: minimum integrity, service areas, quality indicators, carrier to noise and gain, visibility map, multipath map and SSR integrity are decoded to exactly that content, satellites and signals in the order of their masks, and the decoder ends behind the message; satellites with flag 1 are excluded. Times and intervals are written cut towards zero to the unit of the message. Extended integrity is decoded so only if 52 bits of padding follow the solution type. The message on signal in space and local errors is never decoded. A constellation beyond the six of the mask makes a message fail. The level of a carrier to noise index increases with the index, but index 0, not available, is shown as 15. What the encoder of SSR integrity writes for a constellation is read back with the flags, in the order of the dictionary, given to the satellites in ascending order; its header is not that of the decoder, which reads a time made of the provider, SSR provider and solution. Of the metadata of an SSR service exactly one entry is read, whatever their number; the encoder writes none.", "quantifier": "all contents, buffers, offsets, message numbers; all inputs of the encoder", "why_tests_cant": "Tests decode recorded messages of a few providers; that each field of any content is found needs a statement over all contents.", "anchors": ["src/cssrlib/rtcm.py:rtcm.decode_integ_head", "src/cssrlib/rtcm.py:rtcm.decode_integrity_min", "src/cssrlib/rtcm.py:rtcm.decode_integrity_ext", "src/cssrlib/rtcm.py:rtcm.decode_integrity_ext_sis_local", "src/cssrlib/rtcm.py:rtcm.decode_integrity_service_area", "src/cssrlib/rtcm.py:rtcm.decode_integrity_quality", "src/cssrlib/rtcm.py:rtcm.decode_integrity_cnr_acg", "src/cssrlib/rtcm.py:rtcm.decode_integrity_vmap", "src/cssrlib/rtcm.py:rtcm.decode_integrity_mmap", "src/cssrlib/rtcm.py:rtcm.decode_integrity_ssr", "src/cssrlib/rtcm.py:rtcme.encode_integrity_ssr", "src/cssrlib/rtcm.py:rtcm.decode_ssr_metadata", "src/cssrlib/rtcm.py:rtcme.encode_ssr_metadata", "src/cssrlib/rtcm.py:Integrity.cnr_lvl"]}
{"id": "C99", "title": "Single point positioning", "statement": "With enough satellites an epoch never fails: state and covariance are carried to the epoch by the same transition, there is exactly one row for each satellite in use with signals in the header and each signal, only the rows of the first signal hold a residual (the others claim a residual of 0 with the same direction and variance), every variance is positive, and the filter gets the textbook update; over any number of epochs in order of time the covariance never has a negative variance in any direction. The variances are those of the status of the previous epoch. Without observations nothing changes; with fewer than four positions only the status may change; with fewer than four satellites left the time is set though the state is not carried to it. The residual of exact ranges is the error of the receiver clock; the combination of two ranges removes the ionosphere exactly if the frequencies have the ratio of GPS L1/L2 or L1/L5. If the error of the clock is beyond the threshold times the number of signals, the clock is set to that error instead of being corrected by it: with exact ranges of a clock b a start a ends at b - a, and if both are beyond the threshold the clock alternates between the two forever.", "quantifier": "all options, satellites, constellations, ranges, geometries, states, covariances and sequences of epochs", "why_tests_cant": "Tests run one file from one start (clock 0, one signal); the clock reset is right for clock 0 only, and no test can show that an update never fails.", "anchors": ["src/cssrlib/pntpos.py:stdpos.ICB", "src/cssrlib/pntpos.py:stdpos.varerr", "src/cssrlib/pntpos.py:stdpos.udstate", "src/cssrlib/pntpos.py:stdpos.zdres", "src/cssrlib/pntpos.py:stdpos.sdres", "src/cssrlib/pntpos.py:stdpos.ddcov", "src/cssrlib/pntpos.py:stdpos.process", "src/cssrlib/gnss.py:kfupdate"]}
{"id": "C100", "title": "SP3 files", "statement": "Reading a file of position records whose epochs have the number of records of the header stores, in the order of the file, one table for each epoch with at least one value: each satellite has exactly the coordinates (in m) and the clock (in s) of its record, leaving out the mark 999999.999999 and, on request, predicted or not predicted values; everything else is missing. Its standard deviations are the powers of the bases of the header in millimetres and picoseconds, where exponent and base are positive. The counter of epochs also counts the epochs that are not stored. Writing tables and reading them back gives the same epochs with rounded values, but a satellite without position comes back at the centre of the Earth. A line of the list of satellites yields exactly the satellites listed. A line of accuracies whose first entry has less than three digits loses its last entry, and later accuracies go to the wrong satellites. Every surplus line of an epoch stores the epoch once more; a comment or EP line inside an epoch hides the last record and stores the epoch twice; records of a satellite of an unknown kind are stored as satellite 232.", "quantifier": "all files of position records, tables, options, lists of satellites and accuracies, surplus and inserted lines", "why_tests_cant": "Tests read one file of one analysis centre; they do not check files with missing satellites, LEO satellites, EP records or comments, or what is written for a satellite without position.", "anchors": ["src/cssrlib/peph.py:peph_t", "src/cssrlib/peph.py:peph.parse_satlist", "src/cssrlib/peph.py:peph.parse_acclist", "src/cssrlib/peph.py:peph.parse_sp3", "src/cssrlib/peph.py:peph.write_sp3"]}
{"id": "C101", "title": "RTCM satellite antennas, extended phase biases, ionosphere maps", "statement": "The decoder of satellite antennas reads exactly the corrections sent, by satellite and frequency, with the lowest number as missing value, and ends behind the message, wherever it lies; storing them replaces the frequencies of the message and keeps everything else, also other frequencies of the same satellite. Satellite numbers beyond the constellation are stored as satellites of the next constellation. A message of extended phase biases is never decoded: a complete header always raises an exception. An ionosphere map of more than one layer always raises an exception; of a map of one layer nothing is read but the header, and its time replaces the times of the corrections of satellite G10, so that the next correction of G10 raises an exception while other satellites go on.", "quantifier": "all contents of the messages, positions in the buffer, earlier states and corrections that follow", "why_tests_cant": "Test files hold none of these messages; that a map spoils a later correction of one satellite shows only in a sequence of messages.", "anchors": ["src/cssrlib/rtcm.py:satAntCorr", "src/cssrlib/rtcm.py:rtcm.decode_ssr_satant", "src/cssrlib/rtcm.py:rtcm.decode_ssr_pbias_ex", "src/cssrlib/rtcm.py:rtcm.decode_vtec", "src/cssrlib/rtcm.py:rtcm.decode_head", "src/cssrlib/cssrlib.py:cssr.set_t0"]}
{"id": "C102", "title": "Almanac files", "statement": "Reading a Yuma file gives one almanac for each satellite with a line of its week, in order, each with the last value of every element; the time of the almanac has the seconds known at the line of the week; satellites without week are left out, an element before the first satellite raises an exception, and other constellations than GPS, QZSS, Galileo and BeiDou give an empty list. The week is the last one up to the clock of the computer with the right remainder of 1023, where files have the remainder of 1024: the almanac of week w is w/1024 weeks early, two weeks in the years 2019 to 2038. The week of a Galileo XML almanac is right if and only if it lies in the same group of four weeks as the date of issue, otherwise it is wrong by a multiple of four weeks. The health word keeps the three states apart.", "quantifier": "all files of satellites with any lines in any order, all weeks and clocks", "why_tests_cant": "A test reads one file at one date and the clock of the computer is part of the result; the error in the week depends on the number of overflows.", "anchors": ["src/cssrlib/ephemeris.py:loadyuma", "src/cssrlib/ephemeris.py:loadXmlAlmanac", "src/cssrlib/gnss.py:Alm"]}
{"id": "C103", "title": "Disaster reports of the Japan Meteorological Agency", "statement": "Every regular or test report of the twelve kinds is decoded to the values of its fields, whatever they are, in 205 bits with the version at the same place; other kinds and classes return -1 and leave the decoder alone. The report time is taken in the year of the clock of the decoder, so a report of 31 December read after midnight is a year late. Tsunami arrivals are dated as many days early as the day of the month of the report; those of the north-west Pacific report also use the year of the report before, 1970 at first. The code of the epicentre is lost. Earthquake and ash fall reports with codes that have no text raise an exception although nothing is printed. The pages of a text, up to 28, are put together in any order and with repetitions, and all marks are set if and only if all pages have been received; page 0 raises an exception, page 30 and later is put at the end of the buffer, not in its place.", "quantifier": "all reports of all kinds with any values of their fields, all clocks of the decoder, all orders of pages", "why_tests_cant": "A test decodes a few recorded reports, almost all of the same few kinds, and has nothing to compare arrival times with; most kinds of report are rare.", "anchors": ["src/cssrlib/ewss.py:jmaDec.decode", "src/cssrlib/ewss.py:jmaDec.decode_jma_earthquake", "src/cssrlib/ewss.py:jmaDec.decode_jma_hypocenter", "src/cssrlib/ewss.py:jmaDec.decode_jma_seismic_intencity", "src/cssrlib/ewss.py:jmaDec.decode_jma_nankai_earthquake", "src/cssrlib/ewss.py:jmaDec.decode_jma_tsunami", "src/cssrlib/ewss.py:jmaDec.decode_jma_nw_pacific_tsunami", "src/cssrlib/ewss.py:jmaDec.decode_jma_volcano", "src/cssrlib/ewss.py:jmaDec.decode_jma_ash_fall", "src/cssrlib/ewss.py:jmaDec.decode_jma_weather", "src/cssrlib/ewss.py:jmaDec.decode_jma_flood", "src/cssrlib/ewss.py:jmaDec.decode_jma_typhoon", "src/cssrlib/ewss.py:jmaDec.decode_jma_marine"]}
{"id": "C104", "title": "Position, velocity and clock from precise tables", "statement": "From an orbit table the position is the interpolated one, the velocity the difference over one millisecond (exact in steady motion), the clock the interpolated one with the relativistic correction, its rate the difference over one millisecond; a clock of exactly 0 is returned without correction. The clock is that of the table at its epochs, a straight line between neighbours (right for a steady clock, never outside the two values), and held before the first and after the last epoch. With a clock table the clocks are taken from it. There is no result without position or clock at the time, except that within the last millisecond of the reach of the table an exception is raised. The error of the clock is in metres at the epochs of the table but not between them, and gets smaller with time after the end of the table.", "quantifier": "all tables in order, all times, all satellites", "why_tests_cant": "Tests evaluate well inside a table at a few times; the wrong error and the exception at the end give no visible difference there.", "anchors": ["src/cssrlib/peph.py:peph.peph2pos", "src/cssrlib/peph.py:peph.pephpos", "src/cssrlib/peph.py:peph.pephclk", "src/cssrlib/peph.py:peph.pephrel"]}
{"id": "C105", "title": "Antenna corrections", "statement": "The correction of a signal at the receiver is the negative of the offset of the antenna along the line of sight plus the variation for the zenith angle; at the satellite the offset is turned into the Earth frame and the reference of the products taken off. The variation is linear between neighbouring grid angles, that of the table on the grid, and held beyond both ends. A signal is reduced to its band; if the antenna of the receiver lacks the band, a band of GPS is taken after a fixed table, while a satellite antenna gets another band of its own constellation in just three cases. A signal the receiver antenna lacks gives no number, one the satellite antenna lacks raises an exception. With products referred to one signal, that signal has no offset left, only the variation; with an ionosphere-free reference, the ionosphere-free combination of the two corrections is only the variation. The shift from phase centre to centre of mass agrees with the offsets used in the correction. Without an antenna there is no correction. If Earth, satellite and Sun are not on a line, the satellite axes are orthonormal and right-handed, with z to the Earth and the Sun on the positive x side of the x-z plane.", "quantifier": "all antennas, all signals of all constellations, all directions, all tables, all positions of satellite and Sun", "why_tests_cant": "Tests use one antenna file and the signals which it has; substitutions, the ends of the table and missing signals do not occur.", "anchors": ["src/cssrlib/peph.py:substSigTx", "src/cssrlib/peph.py:substSigRx", "src/cssrlib/peph.py:antModelTx", "src/cssrlib/peph.py:antModelRx", "src/cssrlib/peph.py:apc2com", "src/cssrlib/peph.py:orb2ecef"]}
{"id": "C106", "title": "Corrections of PPP via SouthPAN", "statement": "A message of type 32 of a known slot with an odd time number sets, for the satellite of that slot alone, the issue of data, the orbit correction (1/16 m) and its rate (2^-11 m/s) with changed sign, the clock correction (1/32 m) and its rate (2^-12 m/s), where the smallest number of a field means no value, and the validity of the correction is counted from the time the decoder was last set to. The satellite is noted once, and the status says there are orbits and clocks. Messages of other types, unknown slots and even time numbers change nothing. Different slots belong to different satellites, those of the dual-frequency standard without QZSS. The time of the correction is the start of the day on the clock plus 16 s times the number; so around midnight it is a day late for a correction of the day before, and the adjustment by whole weeks never acts.", "quantifier": "all messages, all positions in a buffer, all decoder states, all times", "why_tests_cant": "Tests decode a recorded file of a few hours with a few satellites; missing values, midnight and QZSS slots do not occur.", "anchors": ["src/cssrlib/cssr_pvs.py:cssr_pvs.slot2sat", "src/cssrlib/cssr_pvs.py:cssr_pvs.adjust_time_week", "src/cssrlib/cssr_pvs.py:cssr_pvs.decode_cssr_orb", "src/cssrlib/cssr_pvs.py:cssr_pvs.decode_cssr", "src/cssrlib/cssrlib.py:cssr.set_time"]}
{"id": "C107", "title": "Areas of the ionosphere corrections of MADOCA-PPP", "statement": "After a coverage message the areas of its region are those of the message (the last of equal numbers counts) together with earlier ones of other numbers, other regions are unchanged, and the hour the correction messages count from is that of the message. A position is in a rectangle iff it is at most the half widths away in latitude and longitude, border included. The correction of each satellite, in order, is the polynomial of second degree of the offsets in degrees from the reference point of the area; outside all areas it is zero, and for an area never announced an exception is raised. Not as one would expect: a rectangle in the western hemisphere contains no position; a position more than 2550 m north or south of the centre is in no circle; a circle at 90 degrees east contains all longitudes.", "quantifier": "all messages, all states, all positions, all coefficients", "why_tests_cant": "Tests use one station in Japan in rectangular areas east of Greenwich.", "anchors": ["src/cssrlib/cssr_mdc.py:cssr_mdc.decode_mdc_stec_area", "src/cssrlib/cssr_mdc.py:cssr_mdc.find_grid_index", "src/cssrlib/cssr_mdc.py:cssr_mdc.get_dpos", "src/cssrlib/cssr_mdc.py:cssr_mdc.get_stec", "src/cssrlib/cssr_mdc.py:areaInfo"]}
{"id": "C108", "title": "Sun, Moon, rotation of the Earth, relativistic delay and tides", "statement": "From the celestial to the terrestrial frame leads a rotation at every time, whatever pole, nutation and UT1; so the Sun is always 0.983 to 1.017 astronomical units and the Moon 350000 to 420000 km away. Sidereal time from 2000 to 2099 lies between 0 and a day and is the standard formula for the instant in UT1; it runs 1.0027379 times as fast as time and gains 236.555 s a day. From 2017 on the Sun and Moon used for tides and phase wind-up are turned with the sidereal time 18 s too early, because the leap seconds are taken off twice, while those used for the satellite attitude in the antenna model are not. The relativistic delay is never negative, the same in both directions, independent of the frame, and infinite exactly when satellite and receiver are in opposite directions from the centre of the Earth or one is there, as with an unknown receiver position. The tide of a body is proportional to its mass, and no coordinate of the displacement reaches one metre.", "quantifier": "all times, all pole coordinates and nutations, all positions of satellites and receivers", "why_tests_cant": "Tests compare a few epochs with reference values to a tolerance larger than the error of 18 s.", "anchors": ["src/cssrlib/ppp.py:eci2ecef", "src/cssrlib/ppp.py:utc2gmst", "src/cssrlib/ppp.py:sunmoonpos", "src/cssrlib/ppp.py:shapiro", "src/cssrlib/ppp.py:tide_pl", "src/cssrlib/ppp.py:solid_tide", "src/cssrlib/ppp.py:Rx", "src/cssrlib/ppp.py:Ry", "src/cssrlib/ppp.py:Rz", "src/cssrlib/peph.py:eci2ecef", "src/cssrlib/peph.py:utc2gmst", "src/cssrlib/peph.py:sunmoonpos", "src/cssrlib/peph.py:sunmoonpos_eci"]}
{"id": "C109", "title": "Written observation records are read back", "statement": "An observation epoch written in RINEX format and read again gives the same satellites in the same order, with nothing left over, and each pseudorange, phase, Doppler and signal strength is the number that its text stands for, zero where it is missing. The epoch line gives the number of satellites (up to 999) and the time from 1970 to 2099 up to the rounding of the seconds, also when they round to 60. Of the loss-of-lock flag only whether it equals 1 survives, and only with a phase. The signal strength indicator is always one digit from 1 to 9. This holds when every value fits its 14 columns; a wider one is cut at 14 characters and moves all that follow. Observations without an attribute time, such as the RINEX reader returns, cannot be written at all, and a satellite of a constellation without selected signals stops the writing.", "quantifier": "all epochs, satellites, numbers of signals, selections and values, all formats of decimal numbers that fill the columns", "why_tests_cant": "Tests write and read sample files; the alignment for every combination of signals and every value needs a proof over all texts.", "anchors": ["src/cssrlib/rinex.py:rnxenc.sval", "src/cssrlib/rinex.py:rnxenc.rnx_obs_body", "src/cssrlib/rinex.py:rnxdec.decode_obs"]}
{"id": "C110", "title": "The list of observation types written in the header", "statement": "For every constellation with up to 25 observation types in all the header record written is exactly the one prescribed by the RINEX format: letter, number of types, 13 types a line, label in column 61; the types stand in the order of the columns of the observation records (pseudorange, phase, then Doppler and strength if selected, signal by signal), and reading the record gives them back, type i for column i. All constellations of the selection follow each other in order. With more than 26 types the writer still changes the line only once, after 13: seven GPS signals with four types each give a header that the reader refuses. A constellation without a letter or with a pseudorange but no phase stops the writing.", "quantifier": "all selections of signals, all numbers of types, all texts of types", "why_tests_cant": "The record is right for the few selections that tests use; the position of every type for all numbers of signals and all combinations of types needs a proof.", "anchors": ["src/cssrlib/rinex.py:rnxenc.rnx_obs_header", "src/cssrlib/rinex.py:rnxdec._decode_obsh"]}
{"id": "C111", "title": "Clock files", "statement": "Reading a RINEX clock file gives a table with one entry for each epoch of the file, in its order: the time, and for every satellite the clock and the standard deviation of its last record (zero when the record has only one value), zero for satellites without a record; lines that are not satellite records do not matter. The columns of version 3.04 are used exactly when the header says at least 3.04; without a version no record can be read. Records belong to the same entry when their times are equal and to a new one when they differ by more than a nanosecond. Every satellite is the right one except those of SBAS: S20 to S58 are stored as clocks of QZSS and BeiDou satellites, and a satellite of an unknown letter as the last satellite of NavIC. A second file cannot be read into the same navigation data: its first record raises an exception.", "quantifier": "all files, numbers of epochs and records, all texts of numbers", "why_tests_cant": "A sample file shows the entries of one file with common satellites; other letters and a second file are not tried.", "anchors": ["src/cssrlib/rinex.py:rnxdec.decode_clk", "src/cssrlib/rinex.py:rnxdec.decode_time", "src/cssrlib/rinex.py:pclk_t"]}
{"id": "C112", "title": "Base and rover are differenced satellite by satellite", "statement": "In relative positioning the satellites used are exactly those accepted by the editing at the rover and at the base, in ascending order, whatever the order of the rows in the two observation files. Residuals and unit vectors given to the filter are those of the rover followed by those of the base, so that row k and row k plus the number of satellites belong to the same satellite; the range and phase differences given to the time update are the values of the rover minus those of the base for the same satellite and signal. This holds when no satellite is listed twice; if the base lists any satellite twice, used or not, and there is a common satellite, an exception is raised and the epoch is lost.", "quantifier": "all lists of satellites in any order, all numbers of satellites and signals, all values", "why_tests_cant": "A test run covers the orders of satellites in its two files only; that the rows stay paired for every order and every missing satellite needs a statement over all epochs.", "anchors": ["src/cssrlib/rtk.py:rtkpos.base_process", "src/cssrlib/pppssr.py:pppos.process"]}
{"id": "C113", "title": "Variances of the measurements", "statement": "In precise positioning the variance of a phase at elevation el is e1^2 + (e2/s)^2, s being the sine of the elevation, or 0.1 degree in radians if that is larger; that of a range of the same signal is this times the square of its ratio. It is positive if e1 or e2 is not zero, and a higher satellite never has a larger one; below 0.1 degree it does not depend on the elevation. Standard positioning uses the same formula with the ratio of the signal, but with corrections of any kind (including SBAS, whose own error model is not used) the variance of the DGPS service instead, which ignores the settings of the receiver. That variance is at least 0.061 m^2, does not increase with elevation and increases with the length of the baseline. It is a finite number exactly if the height of the receiver above the ellipsoid is larger than that at which the line of sight touches it; the factor for the ionosphere is computed with the height of the receiver instead of that of the ionosphere, so at sea level it is the reciprocal of the sine of the elevation and grows without bound towards the horizon.", "quantifier": "all elevations, settings, heights and lengths of the baseline (real numbers)", "why_tests_cant": "Tests evaluate some elevations; monotonicity, positivity and the exact set of elevations with a finite variance are statements on all real numbers.", "anchors": ["src/cssrlib/pppssr.py:pppos.varerr", "src/cssrlib/pntpos.py:stdpos.varerr", "src/cssrlib/dgps.py:vardgps"]}
{"id": "C114", "title": "Antenna files", "statement": "Reading an ANTEX file stores every antenna of the file once, in its order, after those of files read before: an antenna without serial number as receiver antenna, every other one as antenna of the satellite of its serial number (left out when only receivers are wanted). Of each frequency listed once, the offsets are stored in the order x, y, z for satellites and east, north, up for receivers, and the variations by zenith angle unchanged; the dates are zero where the file gives none; nothing is stored for signals not listed. Comments, variations by azimuth and the blocks of accuracies, which use the same labels, do not matter. Variations that precede the zenith angles of their antenna are stored empty. A receiver antenna with a serial number is not stored as receiver antenna: depending on the first character of the number it becomes the antenna of satellite -1 or of an existing satellite, or the reading stops with an exception.", "quantifier": "all files of complete antennas, any number of antennas, frequencies, zenith angles and other lines", "why_tests_cant": "A test reads given files; which antennas survive in every file, whatever the optional blocks and serial numbers, needs a statement over all files.", "anchors": ["src/cssrlib/peph.py:atxdec.readpcv", "src/cssrlib/peph.py:pcv_t"]}
{"id": "C115", "title": "Bias files", "statement": "Reading a bias file whose units are right stores every satellite bias of its solution blocks once, in the order of the file, behind those of files read before, with the satellite, signals, validity, value and deviation of its record; biases of stations are not stored. The lookups then give value and deviation of the first such record that is of the satellite and signal and valid at the time. Observable-specific GLONASS biases are stored only when the site of the record is the site asked for; in particular none is stored when no site is given. For differential biases the site makes no difference. A bias with the wrong unit, or a difference of a code and a phase, ends the reading with -1: the biases before it stay, whatever follows is not read.", "quantifier": "all files, any number of blocks, records and other lines, all sites, and all contents of the decoder before", "why_tests_cant": "A test reads one file with one site; that no record is lost or moved in any file, and which ones are left out, needs a statement over all files.", "anchors": ["src/cssrlib/peph.py:biasdec.parse", "src/cssrlib/peph.py:biasdec.getosb", "src/cssrlib/peph.py:biasdec.getosbstd", "src/cssrlib/peph.py:biasdec.doy2time"]}
{"id": "C116", "title": "Quality index", "statement": "Every quality not below zero has one index (class, value), the value fits three bits, and the quality lies between the level of the index and the next level; the quality of an index gives that index back, and a greater quality never has a smaller index. A quality from 0.25 mm to below 6.56 m can be written to an SSR message and is shown by the decoder as the greatest level not above it, less than a quarter too small (of the shown quality plus 1 mm), except that from 6.01 m on 5.4665 m is shown. Below 0.25 mm the decoder shows unknown. From 6.56 m on the class does not fit its field. At and below -1 mm the conversion raises.", "quantifier": "all real qualities and all indices", "why_tests_cant": "The conversion is a logarithm cut to an integer; that no quality falls between two indices or is moved by a class needs a statement over all reals.", "anchors": ["src/cssrlib/cssrlib.py:cssre.quality2qi", "src/cssrlib/cssrlib.py:cssr.quality_idx", "src/cssrlib/rtcm.py:rtcme.encode_cssr_ura"]}
{"id": "C117", "title": "Antenna files of NGS", "statement": "Reading an NGS antenna file stores every antenna with all its lines once as receiver antenna, in the order of the file and behind the antennas of files read before: the type is that of its first line, offsets are stored as east, north, up and the variations of both lines joined, under the phase of the first and second GPS frequency and no other signal. Antennas with lines missing are not stored and do not change their neighbours; more lines do no harm. The heading lines do not matter. An antenna whose first offsets have less than three numbers makes the reading raise.", "quantifier": "all files, any number of antennas and lines, all antennas stored before", "why_tests_cant": "A test reads a file; that an incomplete or longer block never shifts the lines of the next antenna needs a statement over all files.", "anchors": ["src/cssrlib/peph.py:atxdec.readngspcv", "src/cssrlib/peph.py:pcv_t"]}
