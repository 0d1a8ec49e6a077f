import Verif.Model.RtcmBias
import Verif.Model.RtcmLoc
/-!
Model of the RTCM SSR code and phase bias encoders: class `rtcme` of `src/cssrlib/rtcm.py`.

A dictionary that is iterated is the list of its entries in the order of insertion.  The code bias
encoder takes the biases of network 0, the phase bias encoder those of network `inet`; here each has
its own tables.
-/

namespace Verif.RtcmBias
open Verif.Sat Verif.Time Verif.Sval Verif.RtcmTypes Verif.RtcmSsr Verif.Sig
open Verif.RtcmLoc (truncDiv)

/-- `rsig2code(rsig)`: rtcm.py lines 496-596: the tables are those of `ssig2rsig` (lines 851-938),
inverted, so the last of several numbers of a signal counts -/
def sig2code (g : Sig) : Py Nat :=
  match ssigT g.sys with
  | none => .error .keyError
  | some t =>
    match t.reverse.find? fun x => x.2 = g.sig with
    | some x => .ok x.1
    | none => .error .keyError

/-- attributes of the encoder that the bias methods read -/
structure BEnc where
  h : Enc
  cbias : List (Int × List (Sig × Val)) := []
  pbias : List (Int × List (Sig × Val)) := []
  si : Dict Int (Dict Sig Bool) := []
  di : Dict Int (Dict Sig Int) := []
  yaw : Dict Int Val := []
  dyaw : Dict Int Val := []
  iyaw : Bool := false
  iexpb : Int := 0

/-- the entries of one constellation: rtcm.py lines 4691-4693 and 4723-4725 -/
def ownB {α : Type} (sys : Sys) (l : List (Int × α)) : List (Int × α) := l.filter fun r => (sat2prn r.1).1 = sys

/-- `encode_head(msg, i, sys)`: rtcm.py lines 4511-4554, for the code bias (`phase = false`) and the
phase bias message, with the number of satellites, which the phase bias encoder writes itself (lines
4715-4721) -/
def biasHeadE (e : BEnc) (phase : Bool) (n : Nat) (sys : Sys) (p : Pos) : Py Pos := do
  let p ← putU p (if e.h.msgtype = 4076 ∨ sys ≠ .glo then 20 else 17) e.h.tow
  let p ← putU p 4 (e.h.udi (if phase then .pbias else .cbias))
  let p ← putU p 1 e.h.mi.toNat
  let p ← putU p 4 e.h.iodssr
  let p ← putU p 16 e.h.pid
  let p ← putU p 4 e.h.sid
  let p ← if phase then do
      let p ← putU p 1 e.iyaw.toNat
      putU p 4 e.iexpb
    else .ok p
  putU p 6 n

/-- one code bias: rtcm.py lines 4700-4704 -/
def putCode (x : Sig × Val) (p : Pos) : Py Pos := do
  let cb ← truncDiv x.2 (1 / 100)
  let code ← sig2code x.1
  let p ← putU p 5 code
  putS p 14 cb

/-- the code biases of a satellite: rtcm.py lines 4694-4704 -/
def putCodeSat (e : BEnc) (r : Int × List (Sig × Val)) (p : Pos) : Py Pos := do
  let p ← encodeSat e.h r.1 p
  let p ← putU p 5 r.2.length
  r.2.foldlM (fun p x => putCode x p) p

/-- `encode_cssr_cbias(msg, i)`: rtcm.py lines 4685-4706 -/
def encodeCbias (e : BEnc) (p : Pos) : Py Pos := do
  let sys ← encSys e.h
  let p ← biasHeadE e false (own sys e.h.satN).length sys p
  (ownB sys e.cbias).foldlM (fun p r => putCodeSat e r p) p

/-- one phase bias: rtcm.py lines 4739-4758 -/
def putPhase (e : BEnc) (s : Int) (x : Sig × Val) (p : Pos) : Py Pos := do
  let code ← sig2code x.1
  let si ← if Dict.mem e.si s then do
      let r ← Dict.getItem e.si s
      Dict.getItem r x.1
    else .ok false
  let r ← Dict.getItem e.di s
  let di ← Dict.getItem r x.1
  let p ← putU p 5 code
  let p ← putU p 1 si.toNat
  let p ← putU p 4 di
  putS p 20 (ival x.2 20 (1 / 10000))

/-- the yaw angle of a satellite: rtcm.py lines 4732-4736 -/
def putYaw (e : BEnc) (s : Int) (p : Pos) : Py Pos :=
  if Dict.mem e.yaw s then do
    let y ← Dict.getItem e.yaw s
    let yaw ← truncDiv y (1 / 256)
    let d ← Dict.getItem e.dyaw s
    let dyaw ← truncDiv d (1 / 8192)
    let p ← putU p 9 yaw
    putS p 8 dyaw
  else .ok p

/-- the phase biases of a satellite: rtcm.py lines 4726-4758 -/
def putPhaseSat (e : BEnc) (r : Int × List (Sig × Val)) (p : Pos) : Py Pos := do
  let p ← encodeSat e.h r.1 p
  let p ← putU p 5 r.2.length
  let p ← putYaw e r.1 p
  r.2.foldlM (fun p x => putPhase e r.1 x p) p

/-- `encode_cssr_pbias(msg, i)`: rtcm.py lines 4708-4760, for the sub-type `SSR_PBIAS`, the only one
`encode` selects -/
def encodePbias (e : BEnc) (p : Pos) : Py Pos := do
  let sys ← encSys e.h
  let p ← biasHeadE e true (ownB sys e.pbias).length sys p
  (ownB sys e.pbias).foldlM (fun p r => putPhaseSat e r p) p

/-- `rtcme.encode(msg)` for the bias messages: rtcm.py lines 4919-4970 -/
def encodeBias (e : BEnc) (b : BitBuf) : Py Pos := do
  let p ← putU (b, 24) 12 e.h.msgtype
  match encKind e.h.msgtype with
  | some .cbias => encodeCbias e p
  | some .pbias => encodePbias e p
  | _ => .ok p

end Verif.RtcmBias
