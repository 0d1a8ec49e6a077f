# Formal verification of cssrlib: design

## Ground rules

* Model: Lean 4 (4.33.0), shallow and executable, one Lean definition per Python
  function (or per loop of one), each citing file and lines in `/repo`.
* Python exceptions are values: functions that can raise return `Except PyErr α`
  (or `Option α` when only one failure is possible and nothing is observable after it).
* Python `//` and `%` are floor division/modulus (`Int.fdiv`, `Int.fmod`; on `Nat` the usual ones);
  `int(x)` truncates toward zero.
* Bit IO (`bitstruct.unpack_from` / `pack_into`) is modelled on the list of bits of the
  buffer, most significant bit first; reading beyond the end raises.
* Floating point is **not** modelled.  Where the code uses `float`, the model uses exact
  rationals `ℚ` (or reals `ℝ`, or an arbitrary field) and the theorem speaks about exact
  arithmetic.  Each such place is marked below.
* Cryptographic primitives and file IO are parameters (arbitrary functions).

## Layout

* `lean/Verif/Py.lean` – Python integer operations and exceptions.
* `lean/Verif/Bits.lean` – bitstruct model and its laws.
* `lean/Verif/Model/*.lean` – models of the code, with citations.
* `lean/Verif/Lemmas/*.lean` – helper lemmas.
* `lean/Verif/Props/*.lean` – the property theorems, specifications and concrete
  non-vacuity examples.

## Trusted base

* Lean's kernel and the three standard axioms `propext`, `Classical.choice`, `Quot.sound`.
  `#print axioms` of every property theorem must list at most these.
* The faithfulness of the models to the Python text (code is read, never run).
* The bitstruct / numpy / struct semantics described above.

## Plan per property

| id | what is modelled | how it is proved |
|----|------------------|------------------|
| C01 | `prn2sat`, `sat2prn`, `uGNSS` constants | case split on constellation, `omega`; collisions above slot ranges as negation witnesses |
| C02 | `sat2id`, `id2sat`, `char2sys`, `sys2char` on character lists | digit lemma for two-digit numbers, case split |
| C03 | `epoch2time`, `time2epoch` (integer part) | refinement to an independent recursive calendar (day successor); finite table of one 1461-day cycle via `decide +kernel` lifted to all cycles |
| C04 | `timeadd`, `timediff` with rational fraction | floor lemmas |
| C05 | `gpst2time`/`time2gpst` etc. with rational tow | floor/truncation lemmas |
| C06 | `gpst2utc`, `utc2gpst`, leap table | loop over the table as list recursion; monotone-table argument |
| C07 | `rSigRnx.str2sig`, `.str`, `toAtt`, `toTyp` | finite tables |
| C08 | `copy_buff` on bit lists | induction over 32-bit chunks |
| C09 | `kfupdate` index-subset write-back | function extensional reasoning on `Fin n → Fin n → ℚ`; for a positive semidefinite covariance the active block is the full textbook update (Joseph form) |
| C10 | `decode_mask`, `encode_mask` | induction on width |
| C11 | `decode_cssr_mask` | induction over the constellation loop |
| C12 | IOD gate of the message decoders | state-preservation theorem for each gated decoder |
| C13 | `sval` variants, `ival` | two's complement lemma |
| C14 | `decode_l6msg` state machine | invariant by induction over the message sequence |
| C15 | `chk_stat` | bit tests on `Nat` |
| C16 | HAS page collector | invariant by induction over the page sequence |
| C17 | `slot2prn` + `prn2sat` | arithmetic, plus negation witnesses |
| C18 | orbit/clock state with current and previous issue | invariant by induction |
| C19 | `decode_sinca_line` | round-trip with an encoder spec, induction |
| C20 | `get_inet` | finite table + arithmetic |
| C21 | OSNMA verification state machine, crypto abstract | invariant over event sequences |
| C22 | DSM block assembly | invariant: stored blocks = last received of current DSM |
| C23 | page collection of `decode` | invariant |
| C24 | `update_key_chain` | refinement to an iterated hash with spec times; negation for multi-step week roll-over |
| C25 | QZNMA verification state machine, signature abstract | invariant |
| C26 | SBAS fast correction decoding | state preservation, placement |
| C27 | `slot2sat` | arithmetic |
| C28 | interpolation weights over ℚ | field arithmetic |
| C29 | `msearch` (ILS) over exact rationals | search invariant: everything pruned is no better than the current worst |
| C30 | `reduction` elementary steps | determinant/unimodularity invariant |
| C31 | CRC-24 bitwise, `set_checksum`, `checksum` | CRC linearity, residue lemma |
| C32 | same | polynomial/shift-register argument: a non-zero burst of at most 24 bits leaves a non-zero residue |
| C33 | SSR record encoders/decoders | bit-field round-trip lemmas |
| C34 | message number tables | arithmetic + finite tables |
| C35 | MSM cell enumeration | list induction |
| C36 | `getbitu2`… | arithmetic on concatenated bits |
| C37 | `decode_gps_lnav` buffer | invariant over sub-frame sequence |
| C38 | `decode_gal_inav` buffer | invariant |
| C39 | header line count | arithmetic; negation witness |
| C40 | `sync_obs` loop | fuel-indexed loop; non-termination shown for exhausted files |
| C41 | `rnx_nav_body` de-duplication | refinement to "last written" map |
| C42 | `adjday`, `adjtime` | arithmetic over ℚ |
| C43 | `findeph` loop | fold invariant |
| C44 | correction access in `satposs` | aliasing made explicit: array update returns new store; negation witness for drift |
| C45 | `interppol` | Neville recurrence = Lagrange interpolation over any field |
| C46 | bisection loop | loop invariant, termination measure |
| C47 | index functions | arithmetic; negation witness for "troposphere without ionosphere" |
| C48 | `ddidx`, `restamb` | both enumerations equal one spec enumeration |
| C49 | `ddcov`, `kfupdate` over ℝ | Mathlib matrices, `PosSemidef` |
| C50 | `csmooth` with dictionaries | case analysis; negation witness for KeyError |
| C51 | `windupcorr` last line over ℝ/ℚ | floor lemma |
| C52 | `camfDec.decode`, `decode_ext` cursor | branch analysis; negation witnesses |
| C53 | DGPS MT48/MT50, station choice | state preservation, argmin |
| C54 | `searchpcv`, `getosb` | list search lemmas |
| C55 | LNAV masking | bit-position lemma |
| C56 | `parsearch`, `mlambda` mode 2 over ℝ | loop decision; block of `LᵀDL`; orthogonal split of the quadratic form |
| C57 | `resamb_lambda` over ℝ | completing the square over gains; C29/C56 for the search |
| C58 | RINEX 4 navigation records as lists of lines with exact numbers, `rnx_nav_body` and the reader of `decode_nav` | per message a symbolic write/read, induction over the records; C03/C05 for dates and weeks |
| C59 | messages 1-5 of `cssr_bds.py` as in C17/C18, epochs and flags | each loop as an invariant over the record number against a layout read off the bits; final states compared field by field |
| C60 | orbit, clock, bias and accuracy messages of `cssrlib.py`/`cssr_has.py`, model of C11/C12 | a total-correctness logic (`Lemmas/Exact.lean`: returns iff the message has at least so many bits) run over each decoder; the resulting state is stated as one record update |
| C61 | the same model of `sbas.py` as C26-C28 (types 18, 24, 25, 31, 32, 34) | items of a message as a list of (satellite, values) read at fixed bit positions; `Taken` says exactly these items are held afterwards, composed over the two halves; the number of grid delays by induction over the message stream |
| C62 | combined orbit/clock and network bias messages of `cssrlib.py`, model of C11/C12 | total-correctness logic of C60; item widths as functions of the flags and of the satellite bits, one record update as result |
| C63 | ionosphere, gridded and atmospheric messages of `cssrlib.py`, model of C11/C12 (a repeated satellite overwrites its residual, as numpy assignment does) | total-correctness logic of C60; item positions by recursion over the satellites (each width depends on bits inside the item), record update as result |
| C64 | tag sequence, MACSEQ, MACK, root key and public key decoders of `osnma.py`, model of C21; hash, MAC and curve points uninterpreted | table in the notation of the interface document related to the two code tables by kernel evaluation; loops by induction, layouts by segment algebra |
| C65 | tag stage, delayed tags and counters of `osnma.py`, model of C21 | invariant over histories: counters have one entry per key, only grow, flags equal their definition; list lemmas for the pass over delayed tags |
| C66 | `load_gal_inav`, `save_gal_inav`, `gen_gal_inavmsg`, `gen_gal_utcmsg` of `osnma.py`, model of C21 | invariant over histories: the three buffers of a satellite hold the latest words of the words received so far, before the last and before the second last sub-frame start; then reads at fixed positions of the buffer |
| C67 | `decode_head`, `decode_sat`, `decode_orb_sat`, `decode_clk_sat`, `decode_hclk_sat`, `decode_cssr_*`, `decode_igsssr` and the dispatch of `decode` of `rtcm.py` (`Verif/Model/RtcmSsr.lean`, `RtcmBias.lean`) | exactness logic (ok iff long enough) with loop invariants: after k records every table holds the last value among the first k records, else the old entry |
| C68 | `decode_cssr_cbias`, `decode_cssr_pbias`, `ssig2rsig`, `decode_head` of `rtcm.py` (`Verif/Model/RtcmBias.lean`) | exactness logic over a recursion on records whose layout is given by a separate function of the bits; tables related by `Stored` (last value, else old), closed under composition |
| C69 | `setSignals`, `getSignals`, `autoSubstituteSignals`, `decode_obs` of `rinex.py` (`Verif/Model/RnxObs.lean`), header columns from `Verif/Model/Rinex.lean` | fold over the header columns described by a prefix invariant; flat arrays and `reshape` related to rows by lengths; finite table for the replacement codes (`decide +kernel`), lifted to all tables |
| C70 | `decode`, `gen_rds`, `msg2nav`, `verify_qzss_nav` of `qznma.py` (`Verif/Model/Qznma.lean`) | per-satellite abstract state `Chan` with a step function `next`; the model is shown to follow it call by call, then composed over a round; invariant over histories for the counters |
| C71 | the four `load_navmsg_*`, `chk_gps_lnav`, `chk_gps_cnav` of `qznma.py` (`Verif/Model/Qznma.lean`) | specification by the latest version of each part (`latest`, `assembly`, `firstOf`), without a running buffer; one step lemma per type, then induction over the messages |
| C72 | `rSigRnx.__init__` with text, `str2sig` and `uSIG` of `gnss.py` (`Verif/Model/Sig.lean`) | tables `known` and `tracking` written independently; equality of the parser with the table decision for all texts (kernel evaluation over constellations, digits and letters, reasoning for the rest) |
| C73 | the ephemeris decoders and `adjustweek` of `rtcm.py` (`Verif/Model/RtcmEph.lean`), numbers as rationals | message layouts of the standard as data with one generic reader and encoder; each decoder equals the reader of its layout; generic round trip of encoder and reader |
| C74 | `decode_ant_desc`, `decode_sta_pos`, `decode_glo_bias`, `decode_unicode_text` of `rtcm.py` (`Verif/Model/RtcmSta.lean`) | layouts of the messages as bit strings; decoding a frame carrying the layout gives its values |
| C75 | `decode_msm_time`, `encode_msm_time`, `decode_time`, `decode_nrtk_time` of `rtcm.py` (`Verif/Model/RtcmTime.lean`) | clock of each system as a function of the instant; field and clock reading related in both directions, round trips, and the epochs at which the GPS week is not the week of the clock |
| C76 | the two decoders with their store of one buffer per satellite, as functions on bit buffers (a sub-frame number 0 inserts into the buffer as in Python) | invariant: each slot of a buffer holds the last accepted sub-frame or page; reads of split fields equal fields of the information bits; history theorem by induction over the calls; layouts encoded and decoded |
| C77 | the two decoders, with the store of one buffer per satellite for CNAV, as functions on bit buffers | invariant: each third of a buffer holds the last message of its kind (or zeros); field reads equal fields of the layouts of the interface specification; history theorem by induction over the calls |
| C78 | the three decoders, with the stores of one buffer per satellite, as functions on bit buffers | invariant: each slot of a buffer holds the last message of its type (or zeros); field reads equal fields of the layouts of the interface specification; history theorem by induction over the calls |
| C79 | the two decoders, with the store of one buffer per satellite, as functions on bit buffers | invariant: each slot of a buffer holds the last sub-frame of its number (or zeros); field reads equal fields of the layouts of the interface specification; history theorem by induction over the calls |
| C80 | the decoders, with the stores of one buffer per satellite created at its first string, and `gep2time` as functions on bit buffers and exact times | invariants: each slot of a buffer holds the last string of its number (or zeros), and the slots behind them the times of their calls; field reads equal fields of the layouts of the interface specification; history theorems by induction over the calls |
| C81 | the other message types of `sbasDec` and the whole of `decode_cssr` as functions on bit buffers, on top of the model of C26 and C61; covariances as matrices over the rationals | each message type as an equation between the new state and the fields of the layout of the specification at the start of the data; frames by a partial-correctness logic over all branches; the ephemeris held by induction over the messages; positive semidefiniteness from the Gram form |
| C82 | `find_grid_index`, `get_dpos`, `get_trop`, `get_stec` over grid points seen from the rover; the sort is a parameter of which only order by distance is assumed; `grid_index` is a scalar or a list as in the code | the selection against an inductive specification `Used` (with uniqueness) written with signs of cross products; weights by algebra; range by induction; corrections as closed formulas |
| C83 | `merge_cssr` over networks with tables that may be absent, `check_validity` over dictionaries of times | equations for the value looked up in every table after the merge, by induction over groups, satellites and networks; age check by induction over the satellites |
| C84 | `encode_ssr_trop`/`decode_ssr_trop`, `encode_ssr_grid`/`decode_ssr_grid` with the header without satellite count | bits written by the encoder computed by composition, decoder run on them; induction over grid points for the residuals and for the accumulated truncation error |
| C85 | `encode_ssr_iono`/`decode_ssr_iono` with the header without satellite count | bits written by the encoder computed by composition, decoder run on them; induction over satellites and grid points; mask round trip of C10 for the order of the satellites |
| C86 | `encode_cssr_cbias`, `encode_cssr_pbias`, `rsig2code` and the header of both, against the decoders of C68 | bits written by the encoder computed by composition; the records found in the buffer are those written (induction over satellites and signals); the decoder theorems of C68 applied to them; signal tables in full |
| C87 | `qcedit` and its three calls in an epoch of relative positioning | flag of each signal and combination of each satellite against a specification by cases; induction over the satellites with the remembered combinations as the only shared state; totality under the stated conditions |
| C88 | `udstate` and `initx` on the full state vector and covariance matrix | each reset and initialisation is a change of one slot; composition of slot changes with the set of slots touched; induction over satellites, rows and signals; quadratic forms for semidefiniteness |
| C89 | values and design matrix of `sdres` on the full state vector, for the pairs of C49 | each part writes slots that were 0, so the sum over all states grows by coefficient times state; disjointness of the slots from the layout |
| C90 | the decision logic of `process`, `valpos` and the values stored by `save_output`, over arbitrary stages | case analysis of the early returns; induction over signals and satellites for the counters, over epochs for the marks and the stale status |
| C91 | `find_bias` with its change of the stored corrections and the correction part of `zdres`; geometry and antenna corrections are inputs | the lookup preserves a relation between corrections before and after under which all later biases are the same; induction over satellites; ring identities for the residuals |
| C92 | `dtadjust`, `eccentricAnomaly`, `sys2MuOmega`, `eph2pos` with velocity, `eph2clk`, `eph2rel`, `alm2pos` over the real numbers | contraction argument for the fixed point iteration; intermediate value theorem for the exact solution; trigonometric identities; inverse function theorem for the derivative of the anomaly; triangle inequality in the complex plane for the position error |
| C93 | `deq`, `glorbit`, `geph2pos`, `geph2clk`, `geph2rel` over the real numbers; the loop with a number of passes that is shown to suffice | derivatives of the Jacobi integral and of the angular momentum along a motion; expansion of the Runge-Kutta step; induction over the steps |
| C94 | `vnorm`, `geodist`, `xyz2enu`, `enu2xyz`, `ecef2enu`, `satazel`, `ecef2pos`, `pos2ecef`, `deg2dms` over the real numbers | matrix identities; derivatives; a contraction bound for the iteration with constant 1/70 and an invariant for its values |
| C95 | `dops_h`, `dops` over the real numbers with the matrices of Mathlib; the unused rows of zeros are modelled | quadratic form of the normal matrix; comparison of inverses of ordered forms; conjugation by a rotation; tangent bound for the inverse diagonal |
| C96 | `ionppp`, `ionKlobuchar`, `ionmodel` over the real numbers | triangle of earth centre, receiver and pierce point; spherical coordinates of a unit vector; sign of the cosine of the longitude difference decides the branch |
| C97 | `tropmapf`, `tropmodel` and everything they call, over the real numbers, with the three tables | interpolation is a mean of two columns, so bounds over the columns bound every latitude; the continued fraction is increasing because its inner part is at least b/c; powers by monotonicity of rpow |
| C98 | the SC-134 decoders of class `rtcm`, `encode_integrity_ssr`, and the metadata message, with every cursor step | contents as records of numbers and bit masks; a reader that reads the bits of a content as its value composes over loops; the encoder through the bits it writes |
| C99 | class `stdpos`: `ICB`, `varerr`, `udstate`, `zdres`, `sdres`, `ddcov`, `process` on top of `kfupdate` | rows as a specification of their own; the update through `C09.textbook`; sequences of epochs by induction |
| C100 | class `peph`: `parse_satlist`, `parse_acclist`, `parse_sp3` (body), `write_sp3` (body) | a table is specified by its records alone; files by induction over epochs; header lists on characters with finite tables of satellite names and numbers |
| C101 | `decode_ssr_satant`, `decode_ssr_pbias_ex`, `decode_vtec`, `decode_head` for these sub-types, `set_t0` | messages by their content and bits (as C98); dictionaries by lookups |
| C102 | `loadyuma` as a loop over lines with the object `alm` shared with the list; `fullWeek`; week and health of `loadXmlAlmanac` | induction over satellites and lines; linear arithmetic with remainders |
| C103 | `jmaDec.decode` and the twelve decoders, over the bits of the message and the attributes of the decoder; slice assignment of a bytearray for the pages | round trip, field by field; induction over the pages received; linear arithmetic of dates |
| C104 | `peph2pos`, the clock of `pephpos`, `pephrel`, standard deviation of the clocks of `pephpos` and `pephclk` | bracketing by the bisection (C46), field arithmetic |
| C105 | `substSigTx`, `substSigRx`, `antModelTx`, `antModelRx`, `apc2com`, `orb2ecef`, `np.interp` on a grid from `np.arange` | induction over the grid for the interpolation; full tables of signals by evaluation; field and vector identities |
| C106 | `slot2sat`, `adjust_time_week`, `decode_cssr_orb`, `decode_cssr` of `cssr_pvs`, `set_time` | reading of the fields of any message at any position; the day of the clock from week and time of week |
| C107 | `decode_mdc_stec_area`, `areaInfo`, the shapes in `find_grid_index`, `get_dpos`, `get_stec` | round trip of the message by induction over its areas; the shapes by real arithmetic |
| C108 | `Rx`, `Ry`, `Rz`, `utc2gmst`, `eci2ecef`, `sunmoonpos`, `shapiro`, `tide_pl`, `solid_tide` of ppp.py, `utc2gmst`, `eci2ecef`, `sunmoonpos`, `sunmoonpos_eci` of peph.py | products of rotations; bounds of sine, cosine and pi; calendar (C03) for the sidereal time; Cauchy-Schwarz |
| C109 | `rnxenc.sval`, `rnxenc.rnx_obs_body` (rinex.py 1147-1186), reader of C69 | a line as three characters and blocks of sixteen; tables of all numbers of two, three and four digits; calendar (C03) |
| C110 | the part of `rnxenc.rnx_obs_header` that writes the observation types (rinex.py 1083-1131), reader of C39 | invariant: the text after j types, with one change of line after the thirteenth |
| C111 | `rnxdec.decode_clk`, `decode_time` (rinex.py 143-152, 748-797), `pclk_t` | induction over epochs and records: the last entry of the table holds the last records so far |
| C112 | `rtkpos.base_process` (rtk.py 29-56), `pppos.process` (pppssr.py 1454-1456) | a strictly sorted list has an element equal to the next one exactly if there is a later equal one; two ascending lists with the same elements are equal; the number of pairs found is the number of elements minus that of distinct ones |
| C113 | `pppos.varerr` (pppssr.py 264-270), `stdpos.varerr` (pntpos.py 213-226), `vardgps` (dgps.py 18-41); real numbers | monotonicity of sine, cosine, exponential and square root on the range of elevations |
| C114 | `atxdec.readpcv`, `pcv_t` (peph.py 491-569), `id2sat` (gnss.py 1259-1271) | induction over frequencies and antennas: the dictionaries hold the frequencies read so far, blocks of accuracies write under the empty signal only |
| C115 | `biasdec.parse`, `bias_t` (peph.py 1243-1258, 1318-1421), with `doy2time`, `getosb`, `getosbstd` (1260-1316) | induction over the lines: the stored entries are those of the records of the open blocks so far; the lookups by induction over the pairs of record and entry |
| C116 | `cssre.quality2qi` (cssrlib.py 1504-1510), `quality_idx` (508-516) | a power of three below and above every value, then the value within the class; the exponential of the remainder is the quotient by the power |
| C117 | `atxdec.readngspcv` (peph.py 571-611) | the seven lines of a block one after the other, then induction over the blocks: a type line resets all that the next lines use |

## What is not modelled

Floating-point rounding, numpy broadcasting, file and network IO, plotting, the
numerical orbit/clock/troposphere models (`eph2pos`, tide, nutation, mapping functions),
performance.

## Disagreements and bugs found in the code

Each entry is a consequence of the model read off the source.  Where a property was first
intended without the exception, its statement in `properties.jsonl` now states the exact
behaviour including it, and the theorem proves that.  "(proved)" marks entries for which a
theorem or kernel-checked witness exists in the named property file; the others were seen
while reading and are listed for completeness.

### Numbering, identifiers, signals, time
* C01 (proved): the declared PRN limits (GPS 36, QZSS 210) exceed the slots reserved, so satellite
  numbers of GPS 33-36 collide with Galileo 1-4, and so on.
* C02 (proved): identifiers outside a constellation's range are not rejected: `G33` is taken for
  `E01`, `J00` for `E36`.
* C05: instants before the origin of a time scale give negative weeks with truncation toward zero.
* C06 (proved): `gpst2utc`/`utc2gpst` are not mutually inverse within the leap-second windows.
* C07 (proved): signal attributes without letter (`@`, `?`) and GPS attributes need care in `str2sig`.
* C10 (proved): values below the first number overflow in `encode_mask`.

### Compact SSR and HAS
* C11 (proved): positions in the satellite mask beyond a constellation's slots become satellites of another
  constellation (GPS 33-40, GLONASS >32, Galileo >36, QZSS >17); SBAS positions never get the PRN
  offset 119; reserved constellation codes yield satellite 0.
* QZSS L1L is mapped to the L1C signal.
* HAS: `iodssr` is overwritten before it is compared, so the IOD gate and the "previous list" branch have no
  effect; the clock sub-set message uses wrong dictionary keys/`None`.
* C12 (proved, `orbit_not_gated`): orbit, clock and bias messages are not gated by the IOD.
* `decode_cssr_bias` without the network flag leaves `v` unbound.
* C13 (proved): a value rounding to -2^(n-1) is encoded as "not available".
* C14 (proved): a bad or lost sub-frame does not reset the counter; a facility change coinciding with a
  start sub-frame drops the whole frame; pattern >= 2 with vendor 5 raises `IndexError`.
* C15 (proved): network -1 (not yet found) indexes the last network.
* C16 (proved): the size of later HAS pages is not checked; idle epochs count; page number 0 aliases
  row 255.
* C17 (proved): eleven PPP-B2b slots overflow (96-100 collide with 101-105, 137 becomes QZSS, 170-174 SBAS), slot 0
  gives GPS -63.
* C18: `satposs` raises `KeyError` when clocks of only one issue exist; message type 6 reads counts without
  advancing (8 bits early); type 7 with a clock part raises `TypeError`; code biases of a satellite outside the mask are
  skipped without skipping their bits.
* C19 (proved): a text starting with `|0` never terminates; a leading escape uses the last character.
* C20 (proved): undefined area and region values collide; in `find_grid_index` `break` leaves only the inner loop, so the
  last matching region wins.

### Authentication
* OSNMA: once a chain is verified a new key is only linked to the previous, possibly unverified, key of the same
  satellite; a new root key DSM replaces the root while the "verified" flag stays; replay of a root DSM is
  accepted; the week is decremented on every step after a week wrap; the first sub-frame of each week raises;
  the MAC look-up table offset is always 6 (IndexError for MACLT 31, 36-41 in odd sub-frames, wrong half for 28);
  a DSM-PKR before any DSM-KROOT raises; a stray block beyond the announced count blocks completion;
  a chain change resets only one DSM; pages are mixed if the first page was lost; `load_pubkey_pkid` ignores its
  argument; `prn_a` has no default; the slow-MAC loop overwrites `prn_a` and skips elements; 20/28-bit tags are compared on
  whole bytes only; the alert key type stores `False`; class-level mutable state is shared between decoders.
* QZNMA: slot ids above 202 raise; the public key is cached irrespective of its id; `cnav2_to_mnav` is called without
  `toi`; SBAS raises `KeyError`; acceptance is always recorded under issue 0; sub-frames at times 6, 12, 18 right after
  start raise; the first message of a QZSS satellite wipes its stored messages; the LNAV page writes 182 bits into
  180-bit slots; the message type/sub-frame id is not covered by the signature; `rtow` >= 2^17-2 raises; sub-frame id 0
  inserts 40 bytes into the LNAV buffer, page 0 overwrites the last F/NAV page.

### Ambiguity resolution and filters
* With fewer than `ncands` vectors below the initial bound, zero vectors with zero norm are returned.
* `mlambda` with parmode 3 deletes from `d` instead of `zhat` and ignores the recomputed fix.
* C57 (proved): under partial fixing the covariance of the fixed solution is computed as if all double differences were fixed, so it
  is too small unless the one left out carries no information; the left-out, non-integer difference is then held like a fixed one.
* C56 (proved): a success rate equal to the limit fixes nothing.
* C47 (proved): troposphere without ionosphere makes the troposphere index negative, aliasing an ambiguity; ionosphere without
  troposphere shifts the process noise; the ambiguity noise setting never takes effect; the constructor modifies the global
  defaults.
* C48 (proved): more than 233 double differences raise `IndexError`.
* C49: GLONASS phase residuals use one wavelength while the design matrix uses two; an edited reference satellite is still
  used as reference.
* C50 (proved): a satellite first seen with an incomplete measurement raises `KeyError` at every later complete one.
* C44 (proved): Cartesian orbit corrections are modified in place by each evaluation.
* satellite number 233 raises `IndexError` in `satposs`.

### RTCM
* `set_body` copies only bytes 3..len-1, losing the last three payload bytes for the length `set_len` announces;
  `checksum` checks a truncated buffer over the shorter slice (C31, proved).
* C34 (proved): 1069 passes `is_ssrtype`; number 63 is dispatched to the BDS ephemeris; 17 duplicate test numbers; QZSS/SBAS/BDS
  1246-1263 are missing in the table.
* `encode_cssr_comb`, `encode_cssr_hclk` do not exist; GLONASS satellites are written in 6 bits but read in 5; the URA encoder
  iterates another set than the header counts; `decode_cssr_hclk` writes into the last clock message's arrays.
* C33 (proved): in exact arithmetic quality indices are inverted; in floating point 32 of 62 are not.
* C35: MSM1-3 rough ranges lack their scale; invalid rough ranges still give pseudoranges; loss-of-lock flags never set; a reserved
  signal number loses the message; more than 64 cells raise; NavIC L5 has a wrong frequency constant.

### Navigation messages and files
* C37/C55: LNAV eccentricity is read as signed; LNAV `tot` uses the BDS time scale; sub-frame ids 0/6/7 grow the buffer.
* F/NAV: the satellite-id test uses other bits for pages 2-4; page 0 is written to the buffer tail.
* C58 (proved): through a navigation file the two Galileo group delays are exchanged when bit 9 of the data source is set; the BeiDou
  time of transmission comes back 14 s late (the writer does not subtract the offset the reader adds); the group delay of BeiDou B2b
  returns in the wrong field; NavIC group delays become 0; the NavIC L1 record is dated 1980; a time of transmission in
  another week than the ephemeris is off by whole weeks; the L2 P flag is lost; QZSS code is overwritten by health bits.
* C59 (proved): `decode_cssr_cbias` skips a satellite outside the mask without skipping its entries, so the rest of the
  message is misread (`outside_mask_misread`); `decode_cssr_ura` reads the mask number and does not compare it (`ura_other_mask`).
* C60 (proved): no disagreement in the contents. The issue number of orbit, clock and bias messages is stored, not compared
* C61 (proved): the short long-term form applies the missing-value test of 11-bit fields to 9- and 10-bit fields, so no value is ever missing there; a second mask of a band with another number of points does not resize the delays; type 34 raises for every non-zero indicator because `dfrei` does not exist
  (see C12); before the first mask message the running time is formed from the previous time of week; the epoch of the
  accuracy message is always kept in the first slot under satellite 0, whatever slot is decoded into.
* C62 (proved): a bias message without network flag cannot be decoded (`v` unbound); the issue of a combined message is checked but not recorded (commented out in the source), the issue of a bias message is recorded but not checked
* C63 (proved): an atmospheric message without troposphere part still zeroes the troposphere coefficients of the slot (`ct`), empties the ionosphere quality table and refreshes the ionosphere epoch of its satellites even when it has no ionosphere part, so older corrections look fresh; with a troposphere part it raises IndexError for a network that is not in the grid table, whereas the gridded message accepts such a network and keeps the previous mapping function
* C64 (proved): the tables hold the slots of both sub-frames one after the other, but the second sub-frame is always looked up at offset 6 instead of at the number of tags: with four or five tags the check raises IndexError or fails (look-up tables 31, 36 to 41 never authenticate anything in the second sub-frame of a minute), with ten tags (table 28) it compares with slots of the first sub-frame (C64)
* C65 (proved): (1) a delayed tag stays on the list after it has been verified and is verified and counted again for every further satellite that completes the same sub-frame, so a required number above one can be met by a single tag; (2) expired tags are removed from the list while iterating over it, so the tag behind an expired one is skipped: if it is due at that moment it is never verified; (3) the return value of decode is that of the last tag with data, earlier successes of the same call are overwritten (C65)
* C66 (proved): the buffers are rotated but never cleared: a word missed in a sub-frame is replaced by that of an earlier one, however old, so the data of a tag can mix sub-frames whenever the issue numbers of words 1 to 4 agree (word 5, which carries no issue number, always); the rotation depends on the word at one second past the half minute, so a satellite whose first page of a sub-frame is lost is verified against data one sub-frame too old (C66)
* C67 (proved): GLONASS epochs of RTCM SSR are wrong by the leap seconds: `decode_head` applies `utc2gpst` to the result of `glo2time`, which is GPS time already (the option `workaround_sc134` subtracts 36 s); IGS SSR orbit and combined messages are read with the datum bit before the issue although the IGS format has it after the solution number; the combined message does not update the epoch of the clock, so a clock message of the same epoch clears the clocks again; the high-rate clock decoder writes into the array of the last clock message and raises if there was none or it was shorter (C67)
* C68 (proved): a bias record announcing too many signals ends the decoding of the message silently, with an empty entry for its satellite and none for the following ones; all signal numbers without meaning are stored under the same name `???`; the list of satellites with biases is shared by code and phase biases and not created by the constructor, so a first bias message with an epoch not later than the initial one raises; yaw angles are never removed at a new epoch (C68)
* C69 (proved): an epoch cannot be read (`reshape` raises) if it contains a satellite of a constellation with fewer selected signals of some type than another selected constellation; automatic replacement may give two selected signals the same replacement, and then the second column stays zero; the preferred replacement is the last of the list, not the first; QZSS L1 C/A may be replaced by an L1C signal (C69)
* C70 (proved): a page left over from an interrupted signature is mixed with the pages of the next one, which makes the signature complete at the wrong time and loses the round; LNAV, CNAV and CNAV2 of one satellite share one page buffer and one message buffer; data completed while the signature is incomplete raise `AttributeError`, so do the first three sub-frames of the week on a new decoder (C70)
* C71 (proved): parts of two transmissions with the same issue number are combined; an F/NAV page of type 0 overwrites page 4; an LNAV message with sub-frame number 0 lengthens the collecting buffer; LNAV and CNAV messages with equal numbers (an issue byte and a reference time) exclude each other (C71)
* C72 (proved): GPS codes such as `C2I` and `L5A` are accepted since the check compares the attribute instead of the band; on bands a constellation does not use any code of another constellation is accepted; `L2¤` (character 164) is read as band 3 (C72)
* C73 (proved): GLONASS ephemerides have y and z equal to x and two's complement is used for sign-magnitude fields; the BeiDou `cus` field is read with 16 of its 18 bits, which shifts all later fields; `af2` of BeiDou and NavIC is computed from `af0`; `decode_sbs_eph` uses `self.P2_31`, which does not exist; the week is wrong for ephemerides of the other side of a 1024-week rollover; Galileo F/NAV health and data source are stored as those of I/NAV (C73)
* C74 (proved): `decode_unicode_text` does not return or advance the position; texts are cut silently at the end of the message (C74)
* C75 (proved): `decode_time` reads the epoch of message 4076 at the position of version and subtype; GLONASS SSR and network epochs are converted from UTC to GPS time twice (leap seconds added twice, `workaround_sc134` subtracts 36 s); `decode_nrtk_time` is a week early for BeiDou in the first 14 s; `decode_msm_time` is given the GPS week for GLONASS and BeiDou and is off by a week near the week boundary (C75)
* C76 (proved): **C76**: `decode_bds_d2` reads the mean anomaly with 12 instead of 22 bits in its middle part, the last bits of sqrt(A) from page 1 instead of page 6, and the eccentricity as signed; both BeiDou decoders correct the week of toe with the wrong sign and leave toe and toc in BeiDou time while tot is in GPS time; D1 sub-frames of different ephemerides are mixed.
* C77 (proved): **C77**: `decode_gps_cnav2` compares the unscaled time of ephemeris (units of 300 s) with the seconds of the week, so that in the second half of the week toe and toc get the following week. `decode_gps_cnav` gives no ephemeris for clock messages of the types 31 to 37.
* C78 (proved): **C78**: `decode_bds_b2b` computes the time of ephemeris before the week is read, so that toe is always in week 0 of BeiDou time; in all three decoders toe and toc are converted to GPS time but tot is not; the SISAI indices of the clock and SISMAI, unsigned in the interface specification, are read as signed.
* C79 (proved): **C79**: an empty first slot passes the check of the sub-frame number (the number 0), so that a second sub-frame of count 1 alone (in the first seconds of a week) gives an ephemeris with clock values of zero; the signed accuracy index of L1 indexes the table from the end when negative (-1 gives 8192 m); on L1 times are not corrected at the end of a week.
* C80 (proved): **C80**: `decode_glo_l1oc` copies 222 bits of a message, but `decode_glo_cdma` reads the y component of the velocity up to bit 228, so that its last six bits are always zero (a resolution of 2^-24 km/s); the CDMA decoders never compare the times of the messages they combine; a string 5 of any age is used by the FDMA decoder; in FDMA ephemerides `toes` is a time of day, not of week; time of day in GPS time is compared with one in UTC.
* C81 (proved): **C81**: MT17 takes the time of day at bit 201 of the message instead of 215; MT27 reads regions of 34 bits, but they have 35; MT28 counts mask places from zero; `decode_cov` uses E23 twice; MT39 takes the slot for a GPS or GLONASS slot (MT47 adds 119); MT34-36 read the issue at bit 214 instead of 224; MT47 writes the rate of the node to `OMDd`, which nothing reads.
* C82 (proved): **C82**: with the rover within 5 km of a grid point `grid_index` is a scalar, and `dth[scalar]@[1]` (also `dtw`, `dstec`) raises; `ngrid` is 4 also when no fourth point was found.
* C83 (proved): **C83**: `merge_cssr` tests `sat in self.dclk` (and dorb, cbias, pbias, ura) instead of `cs_`, and these tables are empty lists, so nothing is copied there; `lc[inet].dclk` is None in networks which only had STEC and troposphere messages, so that merging raises TypeError; it counts `nsat_g` at the `uGNSS` number although the mask message counts at the number of the standard.
* C84 (proved): **C84**: `decode_ssr_trop` uses `rh`, `rw`, `ng`, `ofst` which are bound only with the residual part (UnboundLocalError); neither `flg_trop` nor `flg_stec` is set by the RTCM decoder, so `get_trop`/`get_stec` (C82) ignore what was decoded; `decode_ssr_grid` type 1 stores the point numbers from 0 on and indexes `dpos[k-ofst]`, type 2 calls `np.array()` without argument (TypeError); the grid encoder truncates every difference, so errors accumulate along the table.
* C85 (proved): **C85**: `encode_ssr_iono` writes a mask (ascending) but the records in the order of the dictionary, `decode_ssr_iono` reads them in the order of the mask, so corrections entered in another order are exchanged between satellites; the encoder reads `ci[3]` of every satellite, an IndexError for the one or three coefficients the decoder stores, and looks only at `ci[3]` to decide whether second-order terms `ci[3:]` are added; residuals are truncated, not rounded; `flg_stec` is read from network `inet` but the values from network `gid`; the decoder sets neither `flg_stec` nor `nsat_n`; grid numbers above 32 raise IndexError; a message without gradients stores one coefficient, for which `get_stec` raises.
* C86 (proved): **C86**: the header of the code bias message counts the satellites of `sat_n` while the records follow `cbias`; the header flag `iyaw` does not follow `yaw`; code biases and yaw angles are truncated, not rounded; a NaN code bias raises ValueError; encoder biases are keyed by signal objects but decoded ones by names, so decoded biases cannot be encoded again; the encoder ignores the observation type of the signal; `iyaw` and `iexpb` of the encoder are not initialised; a `sat_n` satellite without biases makes the decoder read on past the message; GLONASS satellites are written with 6 bits and read with 5.
* C87 (proved): **C87**: `nav.gf` has MAXSAT entries but is indexed by the satellite number, so satellite 233 raises IndexError; in RTK the rover is edited before and after the base, so the second editing compares the combination with itself: a slip of the geometry-free combination never resets an ambiguity; the flags of the base are overwritten, so a slip at the base removes the satellite for one epoch but does not reset its ambiguity; base residuals are formed with the flags of the base only inside `base_process`; only loss-of-lock value 1 counts (RINEX values 3, 5 and 7 do not); signal strength 0 passes; `rr_ = rr; rr_ += disp` changes `nav.rb` in place when it is an array, so the base position moves by the tidal displacement in each epoch; a combination is kept while the satellite is out of sight.
* C88 (proved): **C88**: the editing flags every satellite that is not observed, so `maxout` never matters: a satellite missing for one epoch loses its ambiguities and slant delay; a flagged signal resets all signals of the satellite; equal code frequencies of the first two signals give an infinite slant delay (an exception in the model); GLONASS satellites without channel are skipped with slant delays and raise KeyError without; the slant delay of an epoch is initialised from code even where a phase is missing; the outage counters of constellations without signals in the header count up without ever being reset.
* C89 (proved): **C89**: for GLONASS `v -= lami*(x_i - x_j)` while the design matrix has `-lamj`: residual and design matrix disagree by (lami-lamj) times the ambiguity, hundreds of metres for ambiguities of a million cycles; the slant delay coefficient of the reference uses the frequency of the other satellite; the frequencies are looked up before edited satellites are skipped, so an unknown GLONASS channel raises KeyError.
* C90 (proved): **C90**: `valpos` always returns True, so no solution is ever rejected and the branch with status 0 is dead; `smode` is not reset by the early returns, so outages are stored as (fixed) solutions with the position of the last processed epoch; `vsat` is never cleared, so `nav.ns` counts and the outage counters of satellites without any difference are reset; the two tests `ny < 6` can not be true; the documented return value -1 never occurs, left out epochs return None.
* C91 (proved): **C91**: `find_bias` writes the HAS bias of L2P into the entry of L2W of the stored corrections; the table is chosen by the type of the first signal; a bias missing in the corrections of a service is silently 0 (the satellite is used uncorrected) but missing in Bias-SINEX leaves the satellite out; the fallback to attribute X raises ValueError for SBAS L1 (`sbas_missing`), since L1X is no SBAS signal; with correction-based ionosphere and a position outside every network (`inet <= 0`) measurements are processed without any ionospheric correction; GLONASS phases are never corrected with Bias-SINEX.
* C92 (proved): **C92**: the rates of the harmonic corrections use (-sin u, cos u) instead of (-sin 2phi, cos 2phi) (`h2d` is built from `h`, line 217), so the velocity is wrong whenever an ephemeris has such corrections, by up to centimetres per second (`velocity_wrong`); the velocity of geostationary BeiDou satellites is not rotated like the position, and the rates of axis and mean motion are left out of the velocity; `dtadjust` reduces only differences above a full week, where half a week is customary; `eph2clk` subtracts the clock from the running time in each of the two passes, so the clock of a time about two offsets earlier is used (`transmission`: error offset times drift, below 1e-13 s); the returned sine belongs to the last but one iterate.
* C93 (proved): **C93**: with the rotation of the frame kept in floating point the loop of `geph2pos` ends only because the steps are not lost against the remaining time: with a step below about 1e-12 of the remaining time it would not; steps of a nanosecond or less are never used for the rest, which is dropped. The squared distance is tested after its root has been taken. The polynomial clock of `geph2pos` uses the time as given, the one of `geph2clk` corrects it for the clock, so the two differ by drift times offset.
* C94 (proved): **C94**: `deg2dms` returns the same for -0.5 and 0.5 degrees (`dms_sign`); `pos2ecef(pos, isdeg=True)` changes the array of the caller, so a second call with the same array gives another position; `satazel` returns negative azimuths for the western half; for a receiver in the centre of the earth `ecef2pos` divides by zero (excluded).
* C95 (proved): **C95**: `dops` returns None for fewer than four satellites but raises LinAlgError for four or more in a singular geometry (`cone`); `stdpos.process` calls it outside any handler.
* C96 (proved): **C96**: `ionppp` chooses the branch of the longitude only for latitudes beyond 70 degrees, which is right for heights up to about 409 km and wrong above (`thick`); at a pole it divides by zero; `ionmodel` unpacks the None that `ionoSBAS` returns for receivers below -100 m and raises TypeError (`choice`).
* C97 (proved): **C97**: `tropheightCorr` uses `np.pow`, which exists only from numpy 2.0 on. Below height zero Niell's hydrostatic function has no lower bound of one, because the height term is negative. Hopfield's model ignores height and latitude.
* C98 (proved): `decode_integrity_ext` advances 82 bits over three fields of 30 bits, so constellation mask and everything behind it are read 52 bits too late. `decode_integrity_ext_sis_local` takes `[0]` of the unpacked tuple and always raises a TypeError (MT 5, 2006). `encode_integrity_ssr` and `decode_integrity_ssr` have different headers (time after the SSR issue, no area number), and the encoder writes the flags in dictionary order under an ascending mask. `cnr_lvl(0)` is 15 instead of not available. `decode_ssr_metadata` reads one entry only, `encode_ssr_metadata` writes none though it announces `nm`. `decode_integrity_min` keeps the old tables if the message has no constellation.
* C99 (proved): clock reset (pntpos.py line 569) assigns the mean residual to the clock state instead of adding it, so a reset is right only from clock 0; with exact data it can alternate forever. With `nf` > 1 and `rmode` 0 only `y[i, 0]` is filled, the rows of the other signals enter as measurements of 0 (they hold back the update and raise the effective reset threshold). `rmode` 1 and 2 use the frequencies of GPS (SBAS) for every constellation, so the ionosphere of Galileo E1/E5a, GLONASS or BeiDou is not removed in mode 1. A satellite that falls below the mask between editing and residual is used with residual 0. The early return with too few satellites sets the time without the time update. `varerr` depends on the status of the previous epoch: with SBAS the first epoch has the variances of single point positioning, the following ones those of DGPS with baseline 0.
* C100 (proved): `parse_acclist` strips the leading blanks before it counts entries, so a line of 17 accuracies below 100 is read as 16 and all later accuracies are shifted by one satellite (peph.py lines 63-69; with 2nd line by two, and so on). `write_sp3` writes zeros (not 999999.999999) for a satellite without position, which `parse_sp3` reads as a valid position at the centre of the Earth. `parse_sp3` runs `if v: nav.peph.append(peph)` for every line of the body, not once per epoch: surplus lines store an epoch again. EP/EV records and comments inside an epoch use up record slots. `id2sat` gives -1 for letter L (LEO) and the row index -2 is satellite 232. `nav.ne` counts epochs not stored. `v` is reused for the deviation. Not modelled: `{:13.6f}` grows beyond its columns for values of -1000000 and below; writing needs two epochs (step).
* C101 (proved): `decode_head` (rtcm.py lines 1002-1015) assigns `v` for all sub-types but SSR_PBIAS_EX and then writes `v['iodssr']`: UnboundLocalError for types 90-94. `decode_vtec` takes the number of layers as sent (IGS SSR sends one less), so the layer of a single-layer map is skipped; with more layers `bs.unpack_from('s16', …)` is used without `[0]` and `sval` raises TypeError. `self.lc[inet].t0[sCType.VTEC] = self.time` writes a time under key 10 into a dictionary by satellite number: the entry of G10. `decode_ssr_satant` has as many corrections by angle as the range extension plus one, the largest angle is not used; `prn2sat` does not check the range, so bit 33 of a GPS mask is E01.
* C102 (proved): `loadyuma` uses 1023 instead of 1024 for the overflow of the week (ephemeris.py lines 843-845), so GPS and QZSS almanacs are one week early after the first overflow and two weeks early today. `loadXmlAlmanac` adds the two-bit week to the group of four of the date of issue; around the change of the group the almanac is four weeks off. A line of the week before the line of the seconds gives a time without seconds.
* C103 (proved): ewss.py: `decode_jma_tsunami` and `decode_jma_nw_pacific_tsunami` take the one-bit day offset for the day of the month (lines 538, 568); the latter also uses `self.year` before it is set; `ep` (code of the epicentre) is overwritten by the date before it is stored (lines 334, 393); the report time has no protection against the turn of the year; `decode_jma_nankai_earthquake` never clears `pidx`, so the next text counts as complete after its first page, fails on page 0, and misplaces pages beyond 29 that come out of order.
* C104 (proved): peph.py: `peph2pos` tests the first position again instead of the second (line 457), so the last millisecond of the reach raises TypeError; the standard deviation of the clock lacks the factor of the speed of light between epochs (lines 377, 422) and the sign of the extrapolation error after the last epoch is wrong (lines 373, 418); `c[0] != np.nan` (line 374) is always true.
* C105 (proved): peph.py: `antModelTx` reads `ant.off[sig]` before it asks whether the signal is there, so a signal without offset raises KeyError and the NaN meant for it (as `antModelRx` gives) is never returned; the substituted signal is not looked up again, so it may be missing too; `apc2com` turns with `orb2ecef(time, rs)`, which computes the Sun itself and may differ from `nav.rsun` used in `antModelTx`.
* C106 (proved): cssr_pvs.py: the time number is taken relative to the start of the day of the clock and only corrected by whole weeks (lines 129-131), so just after midnight a correction of the previous day gets a time one day late; the time stored for the validity is that of the clock (`time0`, line 149), not that of the correction. sbas.py decodes the same message with the largest instead of the smallest number of a field as missing value (`sval`).
* C107 (proved): cssr_mdc.py: longitudes of the message are 0 to 360 degrees, those of positions -180 to 180, without reduction (line 73); the distance to the centre of a circle is in metres (lines 78-82) but the range is ten times the number of the message (line 150), where units of ten kilometres must be meant; the east-west distance uses the cosine of the longitude (line 80).
* C108 (proved): ppp.py: `sunmoonpos(tutc)` calls `eci2ecef(tutc, erpv)`, whose argument is GPS time and which takes the leap seconds off again (lines 198, 261), so the Earth is turned 18 s too little (0.075 degrees); peph.py takes UTC there. peph.py line 1159 has the coefficient 0.20188 where ppp.py line 206 has 0.30188 (IAU 1976). `shapiro` divides by zero for a receiver at the centre of the Earth.
* C109 (proved): `rnx_obs_body` takes `obs.time`, but `Obs` and the RINEX reader only have `obs.t`, so that only observations decoded from RTCM messages can be written. Flags 2 and 3 (half-cycle ambiguity) are written but read as 0.
* C110 (proved): the change of line is made only at n == 13, not at every multiple of 13 (line 1105 and others), so a constellation with more than 26 types cannot be written properly; with exactly 26 the padding of 52 blanks puts the label of the second line beyond column 60.
* C111 (proved): line 755 empties `nav.pclk` but leaves `nav.nc`, so that reading a second file raises IndexError at line 784. Lines 776-780 shift the numbers of QZSS but not those of SBAS (as `decode_obs` does): the clock of S25 overwrites that of C01. A satellite number of 0 (unknown letter) writes the element -1, that is satellite 233.
* C112 (proved): `intersect1d` is called with `assume_unique=True`, so a satellite listed twice pairs with itself although it is not accepted; the assignment of rows then raises ValueError. Signal strengths and loss-of-lock flags of `obs_` keep the rows of all rover satellites while `sat`, `L` and `P` are reduced.
* C113 (proved): line 28 of dgps.py uses `pos[2]`, the height of the receiver, where the obliquity factor needs the height of the ionosphere (350 km): at sea level the factor is 1/sin(el) instead of at most about 3, and below the ellipsoid the variance of a low satellite is NaN. `varsbas` is never called.
* C114 (proved): lines 535-540 take the serial number of an individually calibrated receiver antenna for the code of a satellite: 'C12345' becomes an antenna of BeiDou satellite 12, '1234' of satellite -1, 'CR5200' raises ValueError and the whole file is lost.
* C115 (proved): line 1343 compares the constellation with the text 'R', which is never equal, so differential GLONASS biases of all sites are stored whatever site is asked for; line 1393 compares the blank site of a GLONASS satellite bias with the site asked for, so without a site (the default) no observable-specific GLONASS bias is stored, and with one only the station-dependent ones are.
* C116 (proved): a quality of zero, or of 6.56 m and more, cannot be told to the user: zero is written as index (0, 0), which is shown as unknown, and from 6.56 m on the class is 8 or more, which does not fit the three bits of lines 4676-4681 of rtcm.py; qualities from 6.01 m to 6.56 m get index (7, 7), which is shown as 5.4665 m, less than they are (the index means 5.4665 m or more).
* C117 (proved): the argument `pcvs` of `readngspcv` is not used; a blank line counts as the type line of an antenna without lines.
* GLONASS navigation records (read, not modelled): the writer pads the fourth line so that the reader overwrites the health with 0.
* C39 (proved): the header reads int(n/14) continuation lines instead of (n-1)//13, failing for 27, 40, 41, 53-55, ... signals.
* C40 (proved): `sync_obs` never returns once one file is exhausted first.
* C41 (proved): a new data set reusing the last issue number is dropped.
* event records in observation files are parsed as satellites; systems with different signal counts fail in reshape;
  `_decode_nav`: GLONASS L1OC/L3OC unbound time, NavIC L1NV loses `iode`, NavIC tgd truncated.
* C46/C54: the epoch counter includes unstored SP3 epochs; `getdcb` uses a missing attribute; an undefined start time is mapped
  to the year 3000; the GLONASS site test never holds.

### SBAS, DGPS, alerts
* C26/C27 (proved): MT1 GPS slots 33-37 are taken for E01-E05; partial fast blocks misalign the UDREI; MT24 long-term half is read ten bits
  early; a rejected first half of MT25 misaligns the second; mask numbers are used as PRN slots; MT34-36 raise `AttributeError`;
  E23 occurs twice in the covariance decoder.
* C28 (proved): GIVEI 0 is ignored, 15 used with variance 0, delay 511 used; polewards of 85 degrees there is never a correction;
  wrong cells near longitudes 40..50 and -140..-130; the polar bands 9 and 10 have their last twelve points at 80 degrees
  instead of 85, so no corner is ever taken from them.
* C53 (proved): foreign satellites from mask bits; station codes >= 32 raise; satellites without announced issue raise and leave
  the station half-filled; a nearest station without corrections keeps the old corrections in use; MT51 raises; MT47 entries after
  an empty one are not read.
* C52 (proved): detailed information of every hazard except fourteen raises `AttributeError` (misspelt member); undefined indices
  raise; printing an international message raises; extensions of other providers consume nothing; the extension after a message with
  unknown hazard uses a stale guidance selection.

## How to read seeded/LOG.jsonl

Every line is one edit of a model definition in a scratch copy.  `caught` means that the build of a property failed.  That is also the
case when an edit changes nothing and only the proof script no longer fits, so it is weaker than "the statement became false".  When
`failed` lists only names with `example@`, concrete cases and no theorem caught the edit.  `equivalent` is a judgement by reading, not
a proof.  `survived` edits are open: no theorem is known to catch them.  For `survived, theorem tightened` the note says when the edit
was not tried again after the tightening; annotations are by definition, so a later edit of the same definition carries the same one.
