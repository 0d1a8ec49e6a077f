import Verif.Model.Sat
/-!
Model of the RTCM message-number tables of `src/cssrlib/rtcm.py` (class `rtcmUtil`) and of the
message dispatch of `rtcm.decode`, `rtcm.decode_igsssr` and `rtcme.encode`.
-/

namespace Verif.RtcmTypes
open Verif.Sat (Sys)

/-- `sCType`: cssrlib.py lines 65-83 -/
inductive SC where
  | mask | orbit | clock | cbias | pbias | stec | trop | ura | auth | hclock | vtec | oc
  | pbiasEx | satant | metadata | grid
  deriving DecidableEq, Repr

/-- `rtcmUtil.msm_t`: rtcm.py lines 300-303 (dictionaries keep their order) -/
def msmT : List (Sys × Nat) :=
  [(.gps, 1071), (.glo, 1081), (.gal, 1091), (.sbs, 1101), (.qzs, 1111), (.bds, 1121)]

/-- `rtcmUtil.ssr_t`: rtcm.py lines 305-308 -/
def ssrT : List (Sys × Nat) :=
  [(.gps, 1057), (.glo, 1063), (.gal, 1240), (.qzs, 1246), (.sbs, 1252), (.bds, 1258)]

/-- `rtcmUtil.ssrtype_t`: rtcm.py lines 325-396 -/
def ssrtypeT : List (Nat × (Sys × SC)) :=
  [(1057, (.gps, .orbit)), (1058, (.gps, .clock)), (1059, (.gps, .cbias)), (1060, (.gps, .oc)),
   (1061, (.gps, .ura)), (1062, (.gps, .hclock)), (1063, (.glo, .orbit)), (1064, (.glo, .clock)),
   (1065, (.glo, .cbias)), (1066, (.glo, .oc)), (1067, (.glo, .ura)), (1068, (.glo, .hclock)),
   (1240, (.gal, .orbit)), (1241, (.gal, .clock)), (1242, (.gal, .cbias)), (1243, (.gal, .oc)),
   (1244, (.gal, .ura)), (1245, (.gal, .hclock)), (1264, (.none, .vtec)), (1265, (.gps, .pbias)),
   (1266, (.glo, .pbias)), (1267, (.gal, .pbias)), (1268, (.qzs, .pbias)), (1269, (.sbs, .pbias)),
   (1270, (.bds, .pbias)), (41, (.glo, .orbit)), (42, (.glo, .clock)), (43, (.glo, .cbias)),
   (44, (.glo, .oc)), (45, (.glo, .ura)), (46, (.glo, .hclock)), (60, (.none, .metadata)),
   (61, (.none, .grid)), (62, (.gal, .orbit)), (63, (.bds, .orbit)), (64, (.qzs, .orbit)),
   (65, (.gal, .clock)), (66, (.bds, .clock)), (67, (.qzs, .clock)), (68, (.gal, .cbias)),
   (69, (.bds, .cbias)), (70, (.qzs, .cbias)), (71, (.gal, .oc)), (72, (.bds, .oc)),
   (73, (.qzs, .oc)), (74, (.gal, .ura)), (75, (.bds, .ura)), (76, (.qzs, .ura)),
   (77, (.gal, .hclock)), (78, (.bds, .hclock)), (79, (.qzs, .hclock)), (80, (.gps, .satant)),
   (81, (.glo, .satant)), (82, (.gal, .satant)), (83, (.bds, .satant)), (84, (.qzs, .satant)),
   (85, (.gps, .pbias)), (86, (.glo, .pbias)), (87, (.gal, .pbias)), (88, (.bds, .pbias)),
   (89, (.qzs, .pbias)), (90, (.gps, .pbiasEx)), (91, (.glo, .pbiasEx)), (92, (.gal, .pbiasEx)),
   (93, (.bds, .pbiasEx)), (94, (.qzs, .pbiasEx)), (95, (.none, .trop)), (96, (.gps, .stec)),
   (97, (.glo, .stec)), (98, (.gal, .stec)), (99, (.bds, .stec)), (100, (.qzs, .stec))]

/-- `mt2sct(s)`: rtcm.py lines 428-430 -/
def mt2sct (s : Nat) : Py (Sys × SC) := Dict.getItem ssrtypeT s

/-- `sct2mt(sct, sys)`: rtcm.py lines 432-437 -/
def sct2mt (sct : SC) (sys : Sys := .none) : Int :=
  match ssrtypeT.find? fun p => p.2.1 = sys ∧ p.2.2 = sct with
  | some p => p.1
  | none => -1

/-- `get_ssr_sys(msgtype)`: rtcm.py lines 439-494; `sysref` is the attribute set by
`decode_igsssr`.  The last branch prints a text and then reads an unbound variable. -/
def getSsrSys (sysref : Sys) (m : Nat) : Py Sys :=
  if m = 4076 then .ok sysref
  else if m ≥ 1057 ∧ m < 1063 then .ok .gps
  else if m ≥ 1063 ∧ m < 1069 then .ok .glo
  else if m ≥ 1240 ∧ m < 1246 then .ok .gal
  else if m ≥ 1246 ∧ m < 1252 then .ok .qzs
  else if m ≥ 1252 ∧ m < 1258 then .ok .sbs
  else if m ≥ 1258 ∧ m < 1264 then .ok .bds
  else if m = 1264 then .ok .none
  else if m ≥ 1265 ∧ m < 1271 then
    Dict.getItem [(1265, .gps), (1266, .glo), (1267, .gal), (1268, .qzs), (1269, .sbs), (1270, .bds)] m
  else if m ≥ 41 ∧ m < 47 then .ok .glo
  else if m ∈ [62, 65, 68, 71, 74, 77] then .ok .gal
  else if m ∈ [63, 66, 69, 72, 75, 78] then .ok .bds
  else if m ∈ [64, 67, 70, 73, 76, 79] then .ok .qzs
  else if m ≥ 80 ∧ m < 85 then
    Dict.getItem [(80, .gps), (81, .glo), (82, .gal), (83, .bds), (84, .qzs)] m
  else if m ≥ 85 ∧ m < 90 then
    Dict.getItem [(85, .gps), (86, .glo), (87, .gal), (88, .bds), (89, .qzs)] m
  else if m ≥ 90 ∧ m < 95 then
    Dict.getItem [(90, .gps), (91, .glo), (92, .gal), (93, .bds), (94, .qzs)] m
  else if m ≥ 96 ∧ m < 101 then
    Dict.getItem [(96, .gps), (97, .glo), (98, .gal), (99, .bds), (100, .qzs)] m
  else if m ∈ [60, 61, 95] then .ok .none
  else if m ∈ [11, 12, 13] then .ok .none
  else .error .unboundLocal

/-- `is_ssrtype(msgtype, tstmsg)`: rtcm.py lines 726-735 -/
def isSsrtype (m : Nat) (tst : Bool := false) : Bool :=
  ssrT.any fun p => (m ≥ p.2 && m ≤ p.2 + 6) || (m ≥ 1264 && m ≤ 1270) ||
    (tst && m ≥ 60 && m ≤ 100)

/-- `is_msmtype(msgtype)`: rtcm.py lines 737-742 -/
def isMsmtype (m : Nat) : Bool := msmT.any fun p => m ≥ p.2 && m ≤ p.2 + 6

/-- `msmtype(msgtype)`: rtcm.py lines 744-753 -/
def msmtype (m : Nat) : Sys × Nat :=
  match msmT.find? fun p => m ≥ p.2 ∧ m ≤ p.2 + 6 with
  | some p => (p.1, m - p.2 + 1)
  | none => (.none, 0)

/-- `nrtktype(msgtype)`: rtcm.py lines 755-766 -/
def nrtktype (m : Nat) : Sys × Nat :=
  match Dict.get? [(1030, Sys.gps), (1031, .glo), (1303, .bds), (1304, .gal), (1305, .qzs)] m with
  | some s => (s, 1)
  | none => (.none, 0)

/-- `ssrtype(msgtype)`: rtcm.py lines 768-777 -/
def ssrtype (m : Nat) : Sys × Nat :=
  match ssrT.find? fun p => m ≥ p.2 ∧ m < p.2 + 6 with
  | some p => (p.1, m - p.2 + 1)
  | none => (.none, 0)

/-- which decoder / encoder method a message number is handed to -/
inductive Kind where
  | orb | clk | cbias | pbias | comb | ura | hclk | igsssr | nrtk | msm | antDesc | staPos | gloBias
  | gpsEph | gloEph | irnEph | bdsEph | sbsEph | qzsEph | galEph | text
  | metadata | grid | satant | pbiasEx | trop | iono
  | integMin | integExt | integSis | integArea | integQuality | integCnr | integVmap | integMmap
  | integSsr | sc134
  deriving DecidableEq, Repr

/-- the dispatch of `rtcm.decode` (full decoding, nothing skipped): rtcm.py lines 3977-4129 -/
def decKind (m : Nat) : Option Kind :=
  if m ∈ [1057, 1063, 1240, 1246, 1252, 1258] then some .orb
  else if m ∈ [1058, 1064, 1241, 1247, 1253, 1259] then some .clk
  else if m ∈ [1059, 1065, 1242, 1248, 1254, 1260] then some .cbias
  else if m ∈ [1265, 1266, 1267, 1268, 1269, 1270] then some .pbias
  else if m ∈ [1060, 1066, 1243, 1249, 1255, 1261] then some .comb
  else if m ∈ [1061, 1067, 1244, 1250, 1256, 1262] then some .ura
  else if m ∈ [1062, 1068, 1245, 1251, 1257, 1263] then some .hclk
  else if m = 4076 then some .igsssr
  else if m ∈ [1030, 1031, 1303, 1304, 1305] then some .nrtk
  else if isMsmtype m then some .msm
  else if m ∈ [1007, 1008, 1033] then some .antDesc
  else if m ∈ [1005, 1006, 1032] then some .staPos
  else if m = 1230 then some .gloBias
  else if m = 1019 then some .gpsEph
  else if m = 1020 then some .gloEph
  else if m = 1041 then some .irnEph
  else if m = 1042 ∨ m = 63 then some .bdsEph
  else if m = 1043 then some .sbsEph
  else if m = 1044 then some .qzsEph
  else if m = 1045 ∨ m = 1046 then some .galEph
  else if m = 1029 then some .text
  else if m = 60 then some .metadata
  else if m = 61 then some .grid
  else if m ∈ [1057, 41, 62, 63, 64] then some .orb
  else if m ∈ [1058, 42, 65, 66, 67] then some .clk
  else if m ∈ [1060, 44, 71, 72, 73] then some .comb
  else if m ∈ [1061, 45, 74, 75, 76] then some .ura
  else if m ∈ [1062, 46, 77, 78, 79] then some .hclk
  else if m ∈ [1059, 43, 68, 69, 70] then some .cbias
  else if m ≥ 80 ∧ m < 85 then some .satant
  else if m ≥ 85 ∧ m < 90 then some .pbias
  else if m ≥ 90 ∧ m < 95 then some .pbiasEx
  else if m = 95 then some .trop
  else if m ≥ 96 ∧ m < 101 then some .iono
  else if m ∈ [3, 2000] then some .integMin
  else if m ∈ [4, 2005] then some .integExt
  else if m ∈ [5, 2006] then some .integSis
  else if m ∈ [6, 2007] then some .integArea
  else if m = 2008 then some .integArea
  else if m ∈ [7, 2051] then some .integQuality
  else if m ∈ [8, 2091] then some .integCnr
  else if m = 2071 then some .integVmap
  else if m = 2072 then some .integMmap
  else if m ∈ [11, 2011] then some .integSsr
  else if m = 12 then some .integSsr
  else if m = 13 then some .integSsr
  else if m = 54 then some .sc134
  else none

/-- the dispatch of `rtcme.encode`: rtcm.py lines 4919-4972.  `none`: no encoder is called. -/
def encKind (m : Nat) : Option Kind :=
  if isMsmtype m then some .msm
  else if m ∈ [11, 12, 13] then some .integSsr
  else if m = 60 then some .metadata
  else if m = 61 then some .grid
  else if m ∈ [1057, 41, 62, 63, 64] then some .orb
  else if m ∈ [1058, 42, 65, 66, 67] then some .clk
  else if m ∈ [1060, 44, 71, 72, 73] then some .comb
  else if m ∈ [1061, 45, 74, 75, 76] then some .ura
  else if m ∈ [1062, 46, 77, 78, 79] then some .hclk
  else if m ∈ [1059, 43, 68, 69, 70] then some .cbias
  else if m ≥ 80 ∧ m < 85 then none
  else if m ≥ 85 ∧ m < 90 then some .pbias
  else if m ≥ 90 ∧ m < 95 then none
  else if m = 95 then some .trop
  else if m ≥ 96 ∧ m < 101 then some .iono
  else none

/-- `decode_igsssr`: rtcm.py lines 1438-1477: system and method of a sub-type (0..255); `none`
when the sub-type number selects no method.  The vertical TEC message keeps `sysref`. -/
def igsKind (subtype : Nat) (sysref : Sys) : Py (Sys × Option (SC)) :=
  if subtype = 201 then .ok (sysref, some .vtec)
  else
    match Dict.getItem [(2, Sys.gps), (4, .glo), (6, .gal), (8, .qzs), (10, .bds), (12, .sbs)]
        (subtype / 10) with
    | .error e => .error e
    | .ok s =>
      let st := subtype % 10
      .ok (s, if st = 1 then some .orbit else if st = 2 then some .clock
        else if st = 3 then some .oc else if st = 4 then some .hclock
        else if st = 5 then some .cbias else if st = 6 then some .pbias
        else if st = 7 then some .ura else none)

end Verif.RtcmTypes
