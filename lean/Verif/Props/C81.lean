import Verif.Model.SbasAux
import Verif.Lemmas.Layout
import Verif.Props.C42
import Mathlib.Tactic.IntervalCases
/-!
# C81 the other SBAS messages
-/

set_option linter.unusedSimpArgs false

namespace Verif.C81
open Verif.SbasAux Verif.Time Verif.Lay
open Verif.Sat (Sys prn2sat)
open Verif.Rawnav (sc2rad)
open Verif.C06 (instant)

/-! ## Specification -/

/-- names of the fields -/
inductive F where
  | rsv | t0 | ura | x | y | z | vx | vy | vz | ax | ay | az | af0 | af1 | Brrc | CltcLsb | CltcV1 | IltcV1 | CltcV0
  | IltcV0 | CgeoLsb | CgeoV | Igeo | Cer | CionoS | Iiono | CionoR | RssUdre | RssIono | Ccov | did | prn | svh | iods
  | nmsg | snum | nreg | priority | dudreIn | dudreOut | lat1 | lon1 | lat2 | lon2 | scale | E11 | E22 | E33 | E44 | E12
  | E13 | E14 | E23 | E24 | E34 | iv32 | iv39 | Icorr | Ccorr | Rcorr | slot | iodg | provider | cuc | cus | idot | omg
  | Omg0 | M0 | i0 | e | a | te | bi | OmgD | ta
  deriving DecidableEq

/-- type 9: ranging -/
def l9 : Layout F := [
  (.rsv, 8, false), (.t0, 13, false), (.ura, 4, false), (.x, 30, true), (.y, 30, true), (.z, 25, true), (.vx, 17, true),
  (.vy, 17, true), (.vz, 18, true), (.ax, 10, true), (.ay, 10, true), (.az, 10, true), (.af0, 12, true), (.af1, 8, true)]

/-- type 10: degradation parameters -/
def l10 : Layout F := [
  (.Brrc, 10, false), (.CltcLsb, 10, false), (.CltcV1, 10, false), (.IltcV1, 9, false), (.CltcV0, 10, false),
  (.IltcV0, 9, false), (.CgeoLsb, 10, false), (.CgeoV, 10, false), (.Igeo, 9, false), (.Cer, 6, false),
  (.CionoS, 10, false), (.Iiono, 9, false), (.CionoR, 10, false), (.RssUdre, 1, false), (.RssIono, 1, false),
  (.Ccov, 7, false)]

/-- a satellite of type 17 -/
def l17 : Layout F := [
  (.did, 2, false), (.prn, 8, false), (.svh, 8, false), (.x, 15, true), (.y, 15, true), (.z, 9, true), (.vx, 3, true),
  (.vy, 3, true), (.vz, 4, true)]

/-- start of type 27 -/
def l27 : Layout F := [
  (.iods, 3, false), (.nmsg, 3, false), (.snum, 3, false), (.nreg, 3, false), (.priority, 2, false), (.dudreIn, 4, false),
  (.dudreOut, 4, false)]

/-- a region of type 27 -/
def region : Layout F := [
  (.lat1, 8, true), (.lon1, 9, true), (.lat2, 8, true), (.lon2, 9, true)]

/-- a covariance -/
def covL : Layout F := [
  (.scale, 3, false), (.E11, 9, false), (.E22, 9, false), (.E33, 9, false), (.E44, 9, false), (.E12, 10, true),
  (.E13, 10, true), (.E14, 10, true), (.E23, 10, true), (.E24, 10, true), (.E34, 10, true)]

/-- start of type 37 -/
def l37 : Layout F := [
  (.iv32, 6, false), (.iv39, 6, false), (.Cer, 6, false), (.Ccov, 7, false)]

/-- a system of type 37 -/
def l37s : Layout F := [
  (.Icorr, 5, false), (.Ccorr, 8, false), (.Rcorr, 8, false)]

/-- type 39: first part of the ephemeris -/
def l39 : Layout F := [
  (.slot, 6, false), (.iodg, 2, false), (.provider, 5, false), (.cuc, 19, true), (.cus, 19, true), (.idot, 22, true),
  (.omg, 34, true), (.Omg0, 34, true), (.M0, 34, true), (.af0, 25, true), (.af1, 16, true)]

/-- type 40: second part of the ephemeris -/
def l40 : Layout F := [
  (.iodg, 2, false), (.i0, 33, false), (.e, 30, false), (.a, 31, false), (.te, 13, false)]

/-- a satellite of type 47 -/
def l47 : Layout F := [
  (.slot, 6, false), (.provider, 5, false), (.bi, 1, false), (.a, 16, false), (.e, 8, false), (.i0, 13, false),
  (.omg, 14, true), (.Omg0, 14, true), (.OmgD, 8, true), (.M0, 15, true), (.ta, 6, false)]

/-- a scaled field; the largest value of the field means that there is none -/
def sc (n : Nat) (unit : ℚ) (v : Int) : Option ℚ := if v = 2 ^ (n - 1) - 1 then none else some (v * unit)

/-- message type of a transmission of QZSS (preamble, first bits of the type) -/
def qzssType : Nat → Nat → Option Nat
  | _, 0 => some 34
  | 0x53, 1 => some 31
  | 0x9a, 1 => some 37
  | 0xc6, 1 => some 47
  | _, 2 => some 32
  | _, 3 => some 63
  | _, _ => none

/-- type and start of the data of a message of the source `src` (0: L1, else L5) and the transmitter `prn` -/
def kind (src prn : Nat) (msg : BitBuf) : Option (Nat × Nat) :=
  if src = 0 then some (bitsAt msg 8 6, 14)
  else if src = 1 ∧ 184 ≤ prn ∧ prn ≤ 189 then (qzssType (bitsAt msg 0 8) (bitsAt msg 8 6 / 16)).map (·, 10)
  else some (bitsAt msg 4 6, 10)

/-- the satellite transmitting, as far as known -/
def ref (s : St) (prn : Nat) : Int := if prn = 0 then s.satRef else if prn < 193 then prn + 61 else prn - 124

/-- the state with the transmitter noted -/
def noted (s : St) (prn : Nat) : St := { s with satRef := ref s prn }

/-- user range accuracy in m of an index -/
def uraM : List ℚ := [2, 14 / 5, 4, 57 / 10, 8, 113 / 10, 16, 32, 64, 128, 256, 512, 1024, 2048, 4096, 0]

/-- covariance factor of a message, as transmitted -/
def sent (msg : BitBuf) (i : Nat) : Matrix (Fin 4) (Fin 4) ℚ :=
  let v := fun f => (num covL msg i f : ℚ)
  !![v .E11, v .E12, v .E13, v .E14; 0, v .E22, v .E23, v .E24; 0, 0, v .E33, v .E34; 0, 0, 0, v .E44]

/-- covariance factor used: the third element of the second row is repeated -/
def used (msg : BitBuf) (i : Nat) : Matrix (Fin 4) (Fin 4) ℚ :=
  let v := fun f => (num covL msg i f : ℚ)
  !![v .E11, v .E12, v .E13, v .E14; 0, v .E22, v .E23, v .E23; 0, 0, v .E33, v .E34; 0, 0, 0, v .E44]

/-- scale of the factor -/
def covScale (msg : BitBuf) (i : Nat) : ℚ := (2 : ℚ) ^ (num covL msg i .scale - 5)

/-- covariance of a factor and a scale -/
def gram (k : ℚ) (r : Matrix (Fin 4) (Fin 4) ℚ) : Matrix (Fin 4) (Fin 4) ℚ := k ^ 2 • (r.transpose * r)

/-! ## Helpers -/

theorem loc_shift {G : Type} [DecidableEq G] (L : Layout G) (i j : Nat) (f : G) :
    loc L (i + j) f = (loc L j f).map fun x => (i + x.1, x.2) := by
  induction L generalizing j with
  | nil => rfl
  | cons x L ih =>
    obtain ⟨g, w, s⟩ := x
    rw [loc, loc]
    by_cases h : g = f
    · rw [if_pos h, if_pos h]; rfl
    · rw [if_neg h, if_neg h, Nat.add_assoc]; exact ih (j + w)

theorem num_u' {L : Layout F} {f : F} {o w : Nat} (h : loc L 0 f = some (o, w, false)) (b : BitBuf) (i : Nat) :
    num L b i f = (bitsAt b (i + o) w : Int) := num_u (by
  have := loc_shift L i 0 f
  rw [h] at this
  exact this) b

theorem num_s' {L : Layout F} {f : F} {o w : Nat} (h : loc L 0 f = some (o, w, true)) (b : BitBuf) (i : Nat) :
    num L b i f = intAt b (i + o) w := num_s (by
  have := loc_shift L i 0 f
  rw [h] at this
  exact this) b

theorem l9_rsv (m : BitBuf) (i : Nat) : num l9 m i .rsv = (bitsAt m (i + 0) 8 : Int) := num_u' (by decide +kernel) m i
theorem l9_t0 (m : BitBuf) (i : Nat) : num l9 m i .t0 = (bitsAt m (i + 8) 13 : Int) := num_u' (by decide +kernel) m i
theorem l9_ura (m : BitBuf) (i : Nat) : num l9 m i .ura = (bitsAt m (i + 21) 4 : Int) := num_u' (by decide +kernel) m i
theorem l9_x (m : BitBuf) (i : Nat) : num l9 m i .x = intAt m (i + 25) 30 := num_s' (by decide +kernel) m i
theorem l9_y (m : BitBuf) (i : Nat) : num l9 m i .y = intAt m (i + 55) 30 := num_s' (by decide +kernel) m i
theorem l9_z (m : BitBuf) (i : Nat) : num l9 m i .z = intAt m (i + 85) 25 := num_s' (by decide +kernel) m i
theorem l9_vx (m : BitBuf) (i : Nat) : num l9 m i .vx = intAt m (i + 110) 17 := num_s' (by decide +kernel) m i
theorem l9_vy (m : BitBuf) (i : Nat) : num l9 m i .vy = intAt m (i + 127) 17 := num_s' (by decide +kernel) m i
theorem l9_vz (m : BitBuf) (i : Nat) : num l9 m i .vz = intAt m (i + 144) 18 := num_s' (by decide +kernel) m i
theorem l9_ax (m : BitBuf) (i : Nat) : num l9 m i .ax = intAt m (i + 162) 10 := num_s' (by decide +kernel) m i
theorem l9_ay (m : BitBuf) (i : Nat) : num l9 m i .ay = intAt m (i + 172) 10 := num_s' (by decide +kernel) m i
theorem l9_az (m : BitBuf) (i : Nat) : num l9 m i .az = intAt m (i + 182) 10 := num_s' (by decide +kernel) m i
theorem l9_af0 (m : BitBuf) (i : Nat) : num l9 m i .af0 = intAt m (i + 192) 12 := num_s' (by decide +kernel) m i
theorem l9_af1 (m : BitBuf) (i : Nat) : num l9 m i .af1 = intAt m (i + 204) 8 := num_s' (by decide +kernel) m i
theorem l10_Brrc (m : BitBuf) (i : Nat) : num l10 m i .Brrc = (bitsAt m (i + 0) 10 : Int) := num_u' (by decide +kernel) m i
theorem l10_CltcLsb (m : BitBuf) (i : Nat) : num l10 m i .CltcLsb = (bitsAt m (i + 10) 10 : Int) := num_u' (by decide +kernel) m i
theorem l10_CltcV1 (m : BitBuf) (i : Nat) : num l10 m i .CltcV1 = (bitsAt m (i + 20) 10 : Int) := num_u' (by decide +kernel) m i
theorem l10_IltcV1 (m : BitBuf) (i : Nat) : num l10 m i .IltcV1 = (bitsAt m (i + 30) 9 : Int) := num_u' (by decide +kernel) m i
theorem l10_CltcV0 (m : BitBuf) (i : Nat) : num l10 m i .CltcV0 = (bitsAt m (i + 39) 10 : Int) := num_u' (by decide +kernel) m i
theorem l10_IltcV0 (m : BitBuf) (i : Nat) : num l10 m i .IltcV0 = (bitsAt m (i + 49) 9 : Int) := num_u' (by decide +kernel) m i
theorem l10_CgeoLsb (m : BitBuf) (i : Nat) : num l10 m i .CgeoLsb = (bitsAt m (i + 58) 10 : Int) := num_u' (by decide +kernel) m i
theorem l10_CgeoV (m : BitBuf) (i : Nat) : num l10 m i .CgeoV = (bitsAt m (i + 68) 10 : Int) := num_u' (by decide +kernel) m i
theorem l10_Igeo (m : BitBuf) (i : Nat) : num l10 m i .Igeo = (bitsAt m (i + 78) 9 : Int) := num_u' (by decide +kernel) m i
theorem l10_Cer (m : BitBuf) (i : Nat) : num l10 m i .Cer = (bitsAt m (i + 87) 6 : Int) := num_u' (by decide +kernel) m i
theorem l10_CionoS (m : BitBuf) (i : Nat) : num l10 m i .CionoS = (bitsAt m (i + 93) 10 : Int) := num_u' (by decide +kernel) m i
theorem l10_Iiono (m : BitBuf) (i : Nat) : num l10 m i .Iiono = (bitsAt m (i + 103) 9 : Int) := num_u' (by decide +kernel) m i
theorem l10_CionoR (m : BitBuf) (i : Nat) : num l10 m i .CionoR = (bitsAt m (i + 112) 10 : Int) := num_u' (by decide +kernel) m i
theorem l10_RssUdre (m : BitBuf) (i : Nat) : num l10 m i .RssUdre = (bitsAt m (i + 122) 1 : Int) := num_u' (by decide +kernel) m i
theorem l10_RssIono (m : BitBuf) (i : Nat) : num l10 m i .RssIono = (bitsAt m (i + 123) 1 : Int) := num_u' (by decide +kernel) m i
theorem l10_Ccov (m : BitBuf) (i : Nat) : num l10 m i .Ccov = (bitsAt m (i + 124) 7 : Int) := num_u' (by decide +kernel) m i
theorem l17_did (m : BitBuf) (i : Nat) : num l17 m i .did = (bitsAt m (i + 0) 2 : Int) := num_u' (by decide +kernel) m i
theorem l17_prn (m : BitBuf) (i : Nat) : num l17 m i .prn = (bitsAt m (i + 2) 8 : Int) := num_u' (by decide +kernel) m i
theorem l17_svh (m : BitBuf) (i : Nat) : num l17 m i .svh = (bitsAt m (i + 10) 8 : Int) := num_u' (by decide +kernel) m i
theorem l17_x (m : BitBuf) (i : Nat) : num l17 m i .x = intAt m (i + 18) 15 := num_s' (by decide +kernel) m i
theorem l17_y (m : BitBuf) (i : Nat) : num l17 m i .y = intAt m (i + 33) 15 := num_s' (by decide +kernel) m i
theorem l17_z (m : BitBuf) (i : Nat) : num l17 m i .z = intAt m (i + 48) 9 := num_s' (by decide +kernel) m i
theorem l17_vx (m : BitBuf) (i : Nat) : num l17 m i .vx = intAt m (i + 57) 3 := num_s' (by decide +kernel) m i
theorem l17_vy (m : BitBuf) (i : Nat) : num l17 m i .vy = intAt m (i + 60) 3 := num_s' (by decide +kernel) m i
theorem l17_vz (m : BitBuf) (i : Nat) : num l17 m i .vz = intAt m (i + 63) 4 := num_s' (by decide +kernel) m i
theorem l27_iods (m : BitBuf) (i : Nat) : num l27 m i .iods = (bitsAt m (i + 0) 3 : Int) := num_u' (by decide +kernel) m i
theorem l27_nmsg (m : BitBuf) (i : Nat) : num l27 m i .nmsg = (bitsAt m (i + 3) 3 : Int) := num_u' (by decide +kernel) m i
theorem l27_snum (m : BitBuf) (i : Nat) : num l27 m i .snum = (bitsAt m (i + 6) 3 : Int) := num_u' (by decide +kernel) m i
theorem l27_nreg (m : BitBuf) (i : Nat) : num l27 m i .nreg = (bitsAt m (i + 9) 3 : Int) := num_u' (by decide +kernel) m i
theorem l27_priority (m : BitBuf) (i : Nat) : num l27 m i .priority = (bitsAt m (i + 12) 2 : Int) := num_u' (by decide +kernel) m i
theorem l27_dudreIn (m : BitBuf) (i : Nat) : num l27 m i .dudreIn = (bitsAt m (i + 14) 4 : Int) := num_u' (by decide +kernel) m i
theorem l27_dudreOut (m : BitBuf) (i : Nat) : num l27 m i .dudreOut = (bitsAt m (i + 18) 4 : Int) := num_u' (by decide +kernel) m i
theorem region_lat1 (m : BitBuf) (i : Nat) : num region m i .lat1 = intAt m (i + 0) 8 := num_s' (by decide +kernel) m i
theorem region_lon1 (m : BitBuf) (i : Nat) : num region m i .lon1 = intAt m (i + 8) 9 := num_s' (by decide +kernel) m i
theorem region_lat2 (m : BitBuf) (i : Nat) : num region m i .lat2 = intAt m (i + 17) 8 := num_s' (by decide +kernel) m i
theorem region_lon2 (m : BitBuf) (i : Nat) : num region m i .lon2 = intAt m (i + 25) 9 := num_s' (by decide +kernel) m i
theorem covL_scale (m : BitBuf) (i : Nat) : num covL m i .scale = (bitsAt m (i + 0) 3 : Int) := num_u' (by decide +kernel) m i
theorem covL_E11 (m : BitBuf) (i : Nat) : num covL m i .E11 = (bitsAt m (i + 3) 9 : Int) := num_u' (by decide +kernel) m i
theorem covL_E22 (m : BitBuf) (i : Nat) : num covL m i .E22 = (bitsAt m (i + 12) 9 : Int) := num_u' (by decide +kernel) m i
theorem covL_E33 (m : BitBuf) (i : Nat) : num covL m i .E33 = (bitsAt m (i + 21) 9 : Int) := num_u' (by decide +kernel) m i
theorem covL_E44 (m : BitBuf) (i : Nat) : num covL m i .E44 = (bitsAt m (i + 30) 9 : Int) := num_u' (by decide +kernel) m i
theorem covL_E12 (m : BitBuf) (i : Nat) : num covL m i .E12 = intAt m (i + 39) 10 := num_s' (by decide +kernel) m i
theorem covL_E13 (m : BitBuf) (i : Nat) : num covL m i .E13 = intAt m (i + 49) 10 := num_s' (by decide +kernel) m i
theorem covL_E14 (m : BitBuf) (i : Nat) : num covL m i .E14 = intAt m (i + 59) 10 := num_s' (by decide +kernel) m i
theorem covL_E23 (m : BitBuf) (i : Nat) : num covL m i .E23 = intAt m (i + 69) 10 := num_s' (by decide +kernel) m i
theorem covL_E24 (m : BitBuf) (i : Nat) : num covL m i .E24 = intAt m (i + 79) 10 := num_s' (by decide +kernel) m i
theorem covL_E34 (m : BitBuf) (i : Nat) : num covL m i .E34 = intAt m (i + 89) 10 := num_s' (by decide +kernel) m i
theorem l37_iv32 (m : BitBuf) (i : Nat) : num l37 m i .iv32 = (bitsAt m (i + 0) 6 : Int) := num_u' (by decide +kernel) m i
theorem l37_iv39 (m : BitBuf) (i : Nat) : num l37 m i .iv39 = (bitsAt m (i + 6) 6 : Int) := num_u' (by decide +kernel) m i
theorem l37_Cer (m : BitBuf) (i : Nat) : num l37 m i .Cer = (bitsAt m (i + 12) 6 : Int) := num_u' (by decide +kernel) m i
theorem l37_Ccov (m : BitBuf) (i : Nat) : num l37 m i .Ccov = (bitsAt m (i + 18) 7 : Int) := num_u' (by decide +kernel) m i
theorem l37s_Icorr (m : BitBuf) (i : Nat) : num l37s m i .Icorr = (bitsAt m (i + 0) 5 : Int) := num_u' (by decide +kernel) m i
theorem l37s_Ccorr (m : BitBuf) (i : Nat) : num l37s m i .Ccorr = (bitsAt m (i + 5) 8 : Int) := num_u' (by decide +kernel) m i
theorem l37s_Rcorr (m : BitBuf) (i : Nat) : num l37s m i .Rcorr = (bitsAt m (i + 13) 8 : Int) := num_u' (by decide +kernel) m i
theorem l39_slot (m : BitBuf) (i : Nat) : num l39 m i .slot = (bitsAt m (i + 0) 6 : Int) := num_u' (by decide +kernel) m i
theorem l39_iodg (m : BitBuf) (i : Nat) : num l39 m i .iodg = (bitsAt m (i + 6) 2 : Int) := num_u' (by decide +kernel) m i
theorem l39_provider (m : BitBuf) (i : Nat) : num l39 m i .provider = (bitsAt m (i + 8) 5 : Int) := num_u' (by decide +kernel) m i
theorem l39_cuc (m : BitBuf) (i : Nat) : num l39 m i .cuc = intAt m (i + 13) 19 := num_s' (by decide +kernel) m i
theorem l39_cus (m : BitBuf) (i : Nat) : num l39 m i .cus = intAt m (i + 32) 19 := num_s' (by decide +kernel) m i
theorem l39_idot (m : BitBuf) (i : Nat) : num l39 m i .idot = intAt m (i + 51) 22 := num_s' (by decide +kernel) m i
theorem l39_omg (m : BitBuf) (i : Nat) : num l39 m i .omg = intAt m (i + 73) 34 := num_s' (by decide +kernel) m i
theorem l39_Omg0 (m : BitBuf) (i : Nat) : num l39 m i .Omg0 = intAt m (i + 107) 34 := num_s' (by decide +kernel) m i
theorem l39_M0 (m : BitBuf) (i : Nat) : num l39 m i .M0 = intAt m (i + 141) 34 := num_s' (by decide +kernel) m i
theorem l39_af0 (m : BitBuf) (i : Nat) : num l39 m i .af0 = intAt m (i + 175) 25 := num_s' (by decide +kernel) m i
theorem l39_af1 (m : BitBuf) (i : Nat) : num l39 m i .af1 = intAt m (i + 200) 16 := num_s' (by decide +kernel) m i
theorem l40_iodg (m : BitBuf) (i : Nat) : num l40 m i .iodg = (bitsAt m (i + 0) 2 : Int) := num_u' (by decide +kernel) m i
theorem l40_i0 (m : BitBuf) (i : Nat) : num l40 m i .i0 = (bitsAt m (i + 2) 33 : Int) := num_u' (by decide +kernel) m i
theorem l40_e (m : BitBuf) (i : Nat) : num l40 m i .e = (bitsAt m (i + 35) 30 : Int) := num_u' (by decide +kernel) m i
theorem l40_a (m : BitBuf) (i : Nat) : num l40 m i .a = (bitsAt m (i + 65) 31 : Int) := num_u' (by decide +kernel) m i
theorem l40_te (m : BitBuf) (i : Nat) : num l40 m i .te = (bitsAt m (i + 96) 13 : Int) := num_u' (by decide +kernel) m i
theorem l47_slot (m : BitBuf) (i : Nat) : num l47 m i .slot = (bitsAt m (i + 0) 6 : Int) := num_u' (by decide +kernel) m i
theorem l47_provider (m : BitBuf) (i : Nat) : num l47 m i .provider = (bitsAt m (i + 6) 5 : Int) := num_u' (by decide +kernel) m i
theorem l47_bi (m : BitBuf) (i : Nat) : num l47 m i .bi = (bitsAt m (i + 11) 1 : Int) := num_u' (by decide +kernel) m i
theorem l47_a (m : BitBuf) (i : Nat) : num l47 m i .a = (bitsAt m (i + 12) 16 : Int) := num_u' (by decide +kernel) m i
theorem l47_e (m : BitBuf) (i : Nat) : num l47 m i .e = (bitsAt m (i + 28) 8 : Int) := num_u' (by decide +kernel) m i
theorem l47_i0 (m : BitBuf) (i : Nat) : num l47 m i .i0 = (bitsAt m (i + 36) 13 : Int) := num_u' (by decide +kernel) m i
theorem l47_omg (m : BitBuf) (i : Nat) : num l47 m i .omg = intAt m (i + 49) 14 := num_s' (by decide +kernel) m i
theorem l47_Omg0 (m : BitBuf) (i : Nat) : num l47 m i .Omg0 = intAt m (i + 63) 14 := num_s' (by decide +kernel) m i
theorem l47_OmgD (m : BitBuf) (i : Nat) : num l47 m i .OmgD = intAt m (i + 77) 8 := num_s' (by decide +kernel) m i
theorem l47_M0 (m : BitBuf) (i : Nat) : num l47 m i .M0 = intAt m (i + 85) 15 := num_s' (by decide +kernel) m i
theorem l47_ta (m : BitBuf) (i : Nat) : num l47 m i .ta = (bitsAt m (i + 100) 6 : Int) := num_u' (by decide +kernel) m i

theorem bits_six (msg : BitBuf) (k : Nat) : bitsAt msg k 6 < 64 := by
  have := bitsToNat_lt ((msg.drop k).take 6)
  have h : ((msg.drop k).take 6).length ≤ 6 := by rw [List.length_take]; omega
  exact lt_of_lt_of_le this (Nat.pow_le_pow_right (by norm_num) h)

theorem header_kind (src prn : Nat) (msg : BitBuf) (hl : 14 ≤ msg.length) :
    header src prn msg = match kind src prn msg with | some x => .ok x | none => .error .keyError := by
  unfold header kind
  by_cases h0 : src = 0
  · rw [if_neg (fun h : src = 1 ∧ prn ≥ 184 ∧ prn ≤ 189 => by omega), if_pos h0, if_pos h0,
      readU_at (b := msg) (k := 0) (n := 8) (by omega), Py.okBind, readU_at (b := msg) (k := 8) (n := 6) (by omega), Py.okBind]
    rfl
  · rw [if_neg h0, if_neg h0]
    by_cases h1 : src = 1 ∧ 184 ≤ prn ∧ prn ≤ 189
    · rw [if_pos h1, if_pos (show src = 1 ∧ prn ≥ 184 ∧ prn ≤ 189 from h1),
        readU_at (b := msg) (k := 0) (n := 8) (by omega), Py.okBind, readU_at (b := msg) (k := 8) (n := 6) (by omega), Py.okBind]
      have h6 := bits_six msg 8
      have hq : bitsAt msg 8 6 / 16 < 4 := by omega
      generalize bitsAt msg 8 6 = t at *
      generalize bitsAt msg 0 8 = p
      unfold tvs
      generalize t / 16 = q at *
      interval_cases q
      · rfl
      · rw [if_pos rfl]
        by_cases c1 : p = 0x53
        · subst c1; rfl
        · by_cases c2 : p = 0x9a
          · subst c2; rfl
          · by_cases c3 : p = 0xc6
            · subst c3; rfl
            · rw [if_neg c1, if_neg c2, if_neg c3]
              have : qzssType p 1 = none := by
                unfold qzssType
                split <;> first | rfl | (exfalso; omega)
              rw [this]; rfl
      · rfl
      · rfl
    · rw [if_neg h1, if_neg (fun h : src = 1 ∧ prn ≥ 184 ∧ prn ≤ 189 => h1 h),
        readU_at (b := msg) (k := 0) (n := 4) (by omega), Py.okBind, readU_at (b := msg) (k := 4) (n := 6) (by omega), Py.okBind]
      rfl

theorem setRef_noted (s : St) (prn : Nat) : setRef s prn = noted s prn := by
  unfold setRef noted ref
  by_cases h : prn = 0
  · rw [if_pos h, if_pos h]
  · rw [if_neg h, if_neg h]
    by_cases h1 : prn < 193
    · rw [if_pos h1, if_neg (by omega)]
      congr 1
      unfold prn2sat; simp only [Sat.sbsMin]; omega
    · rw [if_neg h1, if_pos (by omega)]
      congr 1
      unfold prn2sat; simp only [Sat.qzsMin]; omega

theorem decode_kind {s : St} {src prn mt i : Nat} {msg : BitBuf} (hk : kind src prn msg = some (mt, i)) (hl : 14 ≤ msg.length) :
    decode s src prn msg = body (noted s prn) mt i msg := by
  unfold decode
  rw [header_kind src prn msg hl, hk, setRef_noted]
  rfl

theorem mapM_ok {α β : Type} {f : α → Py β} {g : α → β} : ∀ l : List α, (∀ x ∈ l, f x = .ok (g x)) → l.mapM f = .ok (l.map g)
  | [], _ => rfl
  | a :: l, h => by
    rw [List.mapM_cons, h a (by simp), Py.okBind, mapM_ok l (fun x hx => h x (by simp [hx]))]
    rfl

theorem cov_ok {msg : BitBuf} {i : Nat} (hl : i + 99 ≤ msg.length) :
    cov msg i = .ok (gram (covScale msg i) (used msg i), covScale msg i) := by
  unfold cov
  rw [readU_at (b := msg) (k := i) (n := 3) (by omega), Py.okBind]
  rw [readU_at (b := msg) (k := i + 3) (n := 9) (by omega), Py.okBind]
  rw [readU_at (b := msg) (k := i + 12) (n := 9) (by omega), Py.okBind]
  rw [readU_at (b := msg) (k := i + 21) (n := 9) (by omega), Py.okBind]
  rw [readU_at (b := msg) (k := i + 30) (n := 9) (by omega), Py.okBind]
  rw [readS_at (b := msg) (k := i + 39) (n := 10) (by omega), Py.okBind]
  rw [readS_at (b := msg) (k := i + 49) (n := 10) (by omega), Py.okBind]
  rw [readS_at (b := msg) (k := i + 59) (n := 10) (by omega), Py.okBind]
  rw [readS_at (b := msg) (k := i + 69) (n := 10) (by omega), Py.okBind]
  rw [readS_at (b := msg) (k := i + 79) (n := 10) (by omega), Py.okBind]
  rw [readS_at (b := msg) (k := i + 89) (n := 10) (by omega), Py.okBind]
  unfold gram used covScale
  simp only [covL_scale, covL_E11, covL_E22, covL_E33, covL_E44, covL_E12, covL_E13, covL_E14, covL_E23, covL_E24, covL_E34, Int.cast_natCast, Nat.add_zero, Matrix.transpose_smul, Matrix.smul_mul, Matrix.mul_smul, smul_smul, pow_two]
  rfl

/-! ## Properties -/

/-- **Ranging message** (type 9): with a known transmitter its ephemeris is replaced by that of the message, nothing else
changes. -/
theorem ranging_message (s : St) {src prn i : Nat} {msg : BitBuf} (hk : kind src prn msg = some (9, i))
    (hl : i + 212 ≤ msg.length) (hi : 14 ≤ msg.length) :
    decode s src prn msg = .ok (if ref s prn ≤ 0 then noted s prn else { noted s prn with seph := some {
      sat := ref s prn
      t0 := tod2tow (16 * num l9 msg i .t0) s.base.time
      sva := uraM.getD (num l9 msg i .ura).toNat 0
      pos := ⟨sc 30 (2 / 25) (num l9 msg i .x), sc 30 (2 / 25) (num l9 msg i .y), sc 25 (2 / 5) (num l9 msg i .z)⟩
      vel := ⟨sc 17 (1 / 1600) (num l9 msg i .vx), sc 17 (1 / 1600) (num l9 msg i .vy), sc 18 (1 / 250) (num l9 msg i .vz)⟩
      acc := ⟨sc 10 (1 / 80000) (num l9 msg i .ax), sc 10 (1 / 80000) (num l9 msg i .ay), sc 10 (1 / 16000) (num l9 msg i .az)⟩
      af0 := sc 12 (1 / 2 ^ 31) (num l9 msg i .af0)
      af1 := sc 8 (1 / 2 ^ 40) (num l9 msg i .af1) } }) := by
  rw [decode_kind hk hi]
  show ranging (noted s prn) msg i = _
  unfold ranging
  rw [readU_at (b := msg) (k := i + 8) (n := 13) (by omega), Py.okBind]
  rw [readU_at (b := msg) (k := i + 21) (n := 4) (by omega), Py.okBind]
  rw [readS_at (b := msg) (k := i + 25) (n := 30) (by omega), Py.okBind]
  rw [readS_at (b := msg) (k := i + 55) (n := 30) (by omega), Py.okBind]
  rw [readS_at (b := msg) (k := i + 85) (n := 25) (by omega), Py.okBind]
  rw [readS_at (b := msg) (k := i + 110) (n := 17) (by omega), Py.okBind]
  rw [readS_at (b := msg) (k := i + 127) (n := 17) (by omega), Py.okBind]
  rw [readS_at (b := msg) (k := i + 144) (n := 18) (by omega), Py.okBind]
  rw [readS_at (b := msg) (k := i + 162) (n := 10) (by omega), Py.okBind]
  rw [readS_at (b := msg) (k := i + 172) (n := 10) (by omega), Py.okBind]
  rw [readS_at (b := msg) (k := i + 182) (n := 10) (by omega), Py.okBind]
  rw [readS_at (b := msg) (k := i + 192) (n := 12) (by omega), Py.okBind]
  rw [readS_at (b := msg) (k := i + 204) (n := 8) (by omega), Py.okBind]
  by_cases h : ref s prn ≤ 0
  · rw [if_pos h, if_pos (show (noted s prn).satRef ≤ 0 from h)]; rfl
  · rw [if_neg h, if_neg (show ¬ (noted s prn).satRef ≤ 0 from h)]
    have hu : bitsAt msg (i + 21) 4 < 16 := by
      have := bitsToNat_lt ((msg.drop (i + 21)).take 4)
      have h : ((msg.drop (i + 21)).take 4).length ≤ 4 := by rw [List.length_take]; omega
      exact lt_of_lt_of_le this (Nat.pow_le_pow_right (by norm_num) h)
    simp only [l9_rsv, l9_t0, l9_ura, l9_x, l9_y, l9_z, l9_vx, l9_vy, l9_vz, l9_ax, l9_ay, l9_az, l9_af0, l9_af1, Int.cast_natCast, Int.toNat_natCast]
    generalize bitsAt msg (i + 21) 4 = u at *
    have e : pyGet uraT u = .ok (uraM.getD u 0) := by
      interval_cases u <;> first | rfl | (norm_num [pyGet, uraT, uraM])
    rw [e, Py.okBind]
    rw [mul_comm]
    norm_num [sc, Sval.svalSbas]
    rfl

/-- **Degradation parameters** (type 10) -/
theorem degradation_message (s : St) {src prn i : Nat} {msg : BitBuf} (hk : kind src prn msg = some (10, i))
    (hl : i + 131 ≤ msg.length) (hi : 14 ≤ msg.length) :
    decode s src prn msg = .ok { noted s prn with degPrm := [
      num l10 msg i .Brrc * (1 / 500), num l10 msg i .CltcLsb * (1 / 500), num l10 msg i .CltcV1 * (1 / 2000), num l10 msg i .IltcV1,
      num l10 msg i .CltcV0 * (1 / 500), num l10 msg i .IltcV0, num l10 msg i .CgeoLsb * (1 / 2000), num l10 msg i .CgeoV * (1 / 20000),
      num l10 msg i .Igeo, num l10 msg i .Cer * (1 / 2), num l10 msg i .CionoS * (1 / 1000), num l10 msg i .Iiono,
      num l10 msg i .CionoR * (1 / 200000), num l10 msg i .RssUdre, num l10 msg i .RssIono, num l10 msg i .Ccov * (1 / 10)] } := by
  rw [decode_kind hk hi]
  show degradationParam (noted s prn) msg i = _
  unfold degradationParam
  rw [readU_at (b := msg) (k := i) (n := 10) (by omega), Py.okBind]
  rw [readU_at (b := msg) (k := i + 10) (n := 10) (by omega), Py.okBind]
  rw [readU_at (b := msg) (k := i + 20) (n := 10) (by omega), Py.okBind]
  rw [readU_at (b := msg) (k := i + 30) (n := 9) (by omega), Py.okBind]
  rw [readU_at (b := msg) (k := i + 39) (n := 10) (by omega), Py.okBind]
  rw [readU_at (b := msg) (k := i + 49) (n := 9) (by omega), Py.okBind]
  rw [readU_at (b := msg) (k := i + 58) (n := 10) (by omega), Py.okBind]
  rw [readU_at (b := msg) (k := i + 68) (n := 10) (by omega), Py.okBind]
  rw [readU_at (b := msg) (k := i + 78) (n := 9) (by omega), Py.okBind]
  rw [readU_at (b := msg) (k := i + 87) (n := 6) (by omega), Py.okBind]
  rw [readU_at (b := msg) (k := i + 93) (n := 10) (by omega), Py.okBind]
  rw [readU_at (b := msg) (k := i + 103) (n := 9) (by omega), Py.okBind]
  rw [readU_at (b := msg) (k := i + 112) (n := 10) (by omega), Py.okBind]
  rw [readU_at (b := msg) (k := i + 122) (n := 1) (by omega), Py.okBind]
  rw [readU_at (b := msg) (k := i + 123) (n := 1) (by omega), Py.okBind]
  rw [readU_at (b := msg) (k := i + 124) (n := 7) (by omega), Py.okBind]
  simp only [l10_Brrc, l10_CltcLsb, l10_CltcV1, l10_IltcV1, l10_CltcV0, l10_IltcV0, l10_CgeoLsb, l10_CgeoV, l10_Igeo, l10_Cer, l10_CionoS, l10_Iiono, l10_CionoR, l10_RssUdre, l10_RssIono, l10_Ccov, Int.cast_natCast, Nat.add_zero]
  norm_num
  rfl

/-- an SBAS almanac of a message of type 17 -/
def almOf (msg : BitBuf) (j : Nat) (t : GTime) : Almanac :=
  .salm (num l17 msg j .svh) ⟨sc 15 2600 (num l17 msg j .x), sc 15 2600 (num l17 msg j .y), sc 9 26000 (num l17 msg j .z)⟩
    ⟨sc 3 10 (num l17 msg j .vx), sc 3 10 (num l17 msg j .vy), sc 4 60 (num l17 msg j .vz)⟩ t

/-- the almanac at a place of a message is taken over, unless it is empty -/
def addAlm (s : St) (msg : BitBuf) (t : GTime) (j : Nat) : St :=
  if num l17 msg j .prn = 0 then s else { s with alm := Dict.set s.alm (num l17 msg j .prn + 61) (almOf msg j t) }

theorem almItem_ok (s : St) {msg : BitBuf} {t : GTime} {i : Nat} (hl : i + 67 ≤ msg.length) :
    almItem s msg t i = .ok (addAlm s msg t i) := by
  unfold almItem addAlm almOf
  rw [readU_at (b := msg) (k := i + 2) (n := 8) (by omega), Py.okBind]
  rw [readU_at (b := msg) (k := i + 10) (n := 8) (by omega), Py.okBind]
  rw [readS_at (b := msg) (k := i + 18) (n := 15) (by omega), Py.okBind]
  rw [readS_at (b := msg) (k := i + 33) (n := 15) (by omega), Py.okBind]
  rw [readS_at (b := msg) (k := i + 48) (n := 9) (by omega), Py.okBind]
  rw [readS_at (b := msg) (k := i + 57) (n := 3) (by omega), Py.okBind]
  rw [readS_at (b := msg) (k := i + 60) (n := 3) (by omega), Py.okBind]
  rw [readS_at (b := msg) (k := i + 63) (n := 4) (by omega), Py.okBind]
  simp only [l17_did, l17_prn, l17_svh, l17_x, l17_y, l17_z, l17_vx, l17_vy, l17_vz, Int.cast_natCast, Nat.add_zero]
  by_cases h : bitsAt msg (i + 2) 8 = 0
  · rw [if_pos h, if_pos (by omega)]; rfl
  · rw [if_neg h, if_neg (by omega)]
    have e : prn2sat .sbs ((bitsAt msg (i + 2) 8 : Nat) : Int) = bitsAt msg (i + 2) 8 + 61 := by
      unfold prn2sat; simp only [Sat.sbsMin]; omega
    rw [e]
    rfl

/-- **Almanac message** (type 17): its satellites are taken over one after the other; their epoch is taken from bits 201 to 211
of the message. -/
theorem almanac_message (s : St) {src prn i : Nat} {msg : BitBuf} (hk : kind src prn msg = some (17, i))
    (hl : i + 201 ≤ msg.length) (hi : 212 ≤ msg.length) :
    decode s src prn msg = .ok ([i, i + 67, i + 134].foldl
      (fun s j => addAlm s msg (tod2tow (64 * bitsAt msg 201 11) (noted s prn).base.time) j) (noted s prn)) := by
  rw [decode_kind hk (by omega)]
  show almanac (noted s prn) msg i = _
  unfold almanac
  rw [readU_at (b := msg) (k := 201) (n := 11) (by omega), Py.okBind]
  dsimp only
  rw [almItem_ok _ (by omega), Py.okBind, almItem_ok _ (by omega), Py.okBind, almItem_ok _ (by omega)]
  have hb : ∀ (s : St) t j, (addAlm s msg t j).base = s.base := by
    intro s t j; unfold addAlm; split <;> rfl
  simp only [List.foldl_cons, List.foldl_nil, noted, hb, mul_comm (64 : ℚ)]

theorem bits_split {b : BitBuf} {k n m : Nat} (h : k + (n + m) ≤ b.length) :
    bitsAt b k (n + m) = bitsAt b k n * 2 ^ m + bitsAt b (k + n) m := by
  show bitsToNat ((b.drop k).take (n + m)) = _
  rw [List.take_add, bitsToNat_append, List.drop_drop, List.length_take, List.length_drop,
    Nat.min_eq_left (show m ≤ b.length - (k + n) by omega)]
  rfl

theorem bits_lt (b : BitBuf) (k n : Nat) : bitsAt b k n < 2 ^ n := by
  have := bitsToNat_lt ((b.drop k).take n)
  have h : ((b.drop k).take n).length ≤ n := by rw [List.length_take]; omega
  exact lt_of_lt_of_le this (Nat.pow_le_pow_right (by norm_num) h)

/-- **The epoch of almanacs is not the transmitted one**: in an L1 message it is made of the last bits of the height and the
velocity of the third satellite, whatever its field of the time of day (bits 215 to 225) says. -/
theorem almanac_epoch {msg : BitBuf} (hl : 226 ≤ msg.length) :
    (bitsAt msg 201 11 : Int) = num l17 msg 148 .z % 16 * 128 + num l17 msg 148 .vx % 8 * 16 + num l17 msg 148 .vy % 8 * 2 +
      if num l17 msg 148 .vz < 0 then 1 else 0 := by
  simp only [l17_did, l17_prn, l17_svh, l17_x, l17_y, l17_z, l17_vx, l17_vy, l17_vz]
  have a1 := bits_split (b := msg) (k := 201) (n := 4) (m := 7) (by omega)
  have a2 := bits_split (b := msg) (k := 205) (n := 3) (m := 4) (by omega)
  have a3 := bits_split (b := msg) (k := 208) (n := 3) (m := 1) (by omega)
  have z := bits_split (b := msg) (k := 196) (n := 5) (m := 4) (by omega)
  have v := bits_split (b := msg) (k := 211) (n := 1) (m := 3) (by omega)
  have l0 := bits_lt msg 196 5
  have l1 := bits_lt msg 201 4
  have l2 := bits_lt msg 205 3
  have l3 := bits_lt msg 208 3
  have l4 := bits_lt msg 211 1
  have l5 := bits_lt msg 212 3
  simp only [Nat.reduceAdd] at *
  have hz : intAt msg 196 9 % 16 = bitsAt msg 201 4 := by
    show toSigned 9 (bitsAt msg 196 9) % 16 = _
    unfold toSigned
    rw [if_neg (by omega)]
    split <;> omega
  have h3 : ∀ k, intAt msg k 3 % 8 = bitsAt msg k 3 := by
    intro k
    have := bits_lt msg k 3
    show toSigned 3 (bitsAt msg k 3) % 8 = _
    unfold toSigned
    rw [if_neg (by omega)]
    split <;> omega
  have hv : (if intAt msg 211 4 < 0 then (1 : Int) else 0) = bitsAt msg 211 1 := by
    show (if toSigned 4 (bitsAt msg 211 4) < 0 then (1 : Int) else 0) = _
    unfold toSigned
    rw [if_neg (show ¬ (4 : Nat) = 0 by omega)]
    by_cases c : bitsAt msg 211 4 < 2 ^ (4 - 1)
    · rw [if_pos c, if_neg (by omega)]
      have c' : bitsAt msg 211 4 < 8 := c
      omega
    · rw [if_neg c]
      have c' : ¬ bitsAt msg 211 4 < 8 := c
      rw [if_pos (by omega)]
      omega
  rw [hz, h3, h3, hv]
  omega

/-- the region at a place of a message -/
def regAt (msg : BitBuf) (j : Nat) : Int × Int × Int × Int :=
  (num region msg j .lat1, num region msg j .lon1, num region msg j .lat2, num region msg j .lon2)

theorem region_ok {msg : BitBuf} {i : Nat} (hl : i + 34 ≤ msg.length) : SbasAux.region msg i = .ok (regAt msg i) := by
  unfold SbasAux.region regAt
  rw [readS_at (b := msg) (k := i) (n := 8) (by omega), Py.okBind]
  rw [readS_at (b := msg) (k := i + 8) (n := 9) (by omega), Py.okBind]
  rw [readS_at (b := msg) (k := i + 17) (n := 8) (by omega), Py.okBind]
  rw [readS_at (b := msg) (k := i + 25) (n := 9) (by omega), Py.okBind]
  simp only [region_lat1, region_lon1, region_lat2, region_lon2, Nat.add_zero]
  rfl

/-- **Service message** (type 27): the regions are read every 34 bits, though each has a bit for its shape and they are sent
every 35 bits; only the first is read where it is sent. -/
theorem service_message (s : St) {src prn i : Nat} {msg : BitBuf} (hk : kind src prn msg = some (27, i))
    (hl : i + 193 ≤ msg.length) (hi : 14 ≤ msg.length) :
    decode s src prn msg = .ok { noted s prn with sinfo := {
      iods := num l27 msg i .iods, nmsg := num l27 msg i .nmsg, snum := num l27 msg i .snum, nreg := num l27 msg i .nreg
      priority := num l27 msg i .priority, dUDREin := num l27 msg i .dudreIn, dUDREout := num l27 msg i .dudreOut
      regions := (List.range 5).map fun k => regAt msg (i + 22 + 34 * k)
      shape := bitsAt msg (i + 192) 1 } } := by
  rw [decode_kind hk hi]
  show service (noted s prn) msg i = _
  unfold service
  rw [readU_at (b := msg) (k := i) (n := 3) (by omega), Py.okBind]
  rw [readU_at (b := msg) (k := i + 3) (n := 3) (by omega), Py.okBind]
  rw [readU_at (b := msg) (k := i + 6) (n := 3) (by omega), Py.okBind]
  rw [readU_at (b := msg) (k := i + 9) (n := 3) (by omega), Py.okBind]
  rw [readU_at (b := msg) (k := i + 12) (n := 2) (by omega), Py.okBind]
  rw [readU_at (b := msg) (k := i + 14) (n := 4) (by omega), Py.okBind]
  rw [readU_at (b := msg) (k := i + 18) (n := 4) (by omega), Py.okBind]
  rw [region_ok (i := i + 22) (by omega), Py.okBind, region_ok (i := i + 56) (by omega), Py.okBind,
    region_ok (i := i + 90) (by omega), Py.okBind, region_ok (i := i + 124) (by omega), Py.okBind,
    region_ok (i := i + 158) (by omega), Py.okBind]
  rw [readU_at (b := msg) (k := i + 192) (n := 1) (by omega), Py.okBind]
  simp only [l27_iods, l27_nmsg, l27_snum, l27_nreg, l27_priority, l27_dudreIn, l27_dudreOut, Nat.add_zero]
  rfl

/-- the covariance at a place of a message is given to a satellite -/
def putCov (s : St) (msg : BitBuf) (sat : Int) (j : Nat) : St := { s with obad := { s.obad with
  cov := Dict.set s.obad.cov sat (gram (covScale msg j) (used msg j)), scl := Dict.set s.obad.scl sat (covScale msg j) } }

theorem covItem_ok (s : St) {msg : BitBuf} {i : Nat} (hl : i + 105 ≤ msg.length) :
    covItem s msg i = match s.base.sat[bitsAt msg i 6]? with
      | some sat => .ok (putCov s msg sat (i + 6))
      | none => .error .indexError := by
  unfold covItem
  rw [readU_at (b := msg) (k := i) (n := 6) (by omega), Py.okBind, cov_ok (by omega), Py.okBind]
  unfold pyGet
  cases s.base.sat[bitsAt msg i 6]? <;> rfl

/-- **Covariance message** (type 28): with the issue of the current mask, the two covariances go to the satellites at the places
of the mask named, counted from zero (the specification counts from one), and it raises if there is no such place; with another
issue nothing changes. -/
theorem cov_message (s : St) {src prn i : Nat} {msg : BitBuf} (hk : kind src prn msg = some (28, i))
    (hl : i + 212 ≤ msg.length) (hi : 14 ≤ msg.length) :
    decode s src prn msg =
      if (bitsAt msg i 2 : Int) ≠ s.base.iodp then .ok (noted s prn) else
      match s.base.sat[bitsAt msg (i + 2) 6]?, s.base.sat[bitsAt msg (i + 107) 6]? with
      | some a, some b => .ok (putCov (putCov (noted s prn) msg a (i + 8)) msg b (i + 113))
      | _, _ => .error .indexError := by
  rw [decode_kind hk hi]
  show cov28 (noted s prn) msg i = _
  unfold cov28
  rw [readU_at (b := msg) (k := i) (n := 2) (by omega), Py.okBind]
  by_cases h : (bitsAt msg i 2 : Int) ≠ s.base.iodp
  · rw [if_pos h, if_pos (show (bitsAt msg i 2 : Int) ≠ (noted s prn).base.iodp from h)]; rfl
  · rw [if_neg h, if_neg (show ¬ (bitsAt msg i 2 : Int) ≠ (noted s prn).base.iodp from h), covItem_ok _ (by omega)]
    show (match s.base.sat[bitsAt msg (i + 2) 6]? with
      | some sat => Except.ok (putCov (noted s prn) msg sat (i + 2 + 6))
      | none => (.error .indexError : Py St)) >>= _ = _
    rcases s.base.sat[bitsAt msg (i + 2) 6]? with _ | a
    · rfl
    · rw [Py.okBind, covItem_ok _ (by omega)]
      show (match s.base.sat[bitsAt msg (i + 107) 6]? with
        | some sat => Except.ok (putCov (putCov (noted s prn) msg a (i + 2 + 6)) msg sat (i + 107 + 6))
        | none => (.error .indexError : Py St)) = _
      rcases s.base.sat[bitsAt msg (i + 107) 6]? with _ | b <;> rfl

/-- **Covariances are positive semidefinite**: symmetric, and no direction has a negative variance. -/
theorem cov_psd (msg : BitBuf) (i : Nat) :
    (gram (covScale msg i) (used msg i)).transpose = gram (covScale msg i) (used msg i) ∧
      ∀ x : Fin 4 → ℚ, 0 ≤ dotProduct x ((gram (covScale msg i) (used msg i)).mulVec x) := by
  generalize covScale msg i = k
  generalize used msg i = r
  unfold gram
  constructor
  · rw [Matrix.transpose_smul, Matrix.transpose_mul, Matrix.transpose_transpose]
  · intro x
    have e : dotProduct x ((r.transpose * r).mulVec x) = dotProduct (r.mulVec x) (r.mulVec x) := by
      rw [← Matrix.mulVec_mulVec, Matrix.dotProduct_mulVec, Matrix.vecMul_transpose]
    rw [Matrix.smul_mulVec, dotProduct_smul, smul_eq_mul, e]
    exact mul_nonneg (sq_nonneg k) (Finset.sum_nonneg fun j _ => mul_self_nonneg _)

/-- **The covariance used is the transmitted one exactly if** the element of the second row that is used instead of the fourth
is equal to it. -/
theorem cov_sent (msg : BitBuf) (i : Nat) :
    gram (covScale msg i) (used msg i) = gram (covScale msg i) (sent msg i) ↔ num covL msg i .E23 = num covL msg i .E24 := by
  constructor
  · intro h
    have hk : covScale msg i ^ 2 ≠ 0 := pow_ne_zero 2 (zpow_ne_zero _ (by norm_num))
    have h1 := congrFun (congrFun h 2) 3
    have h2 := congrFun (congrFun h 3) 3
    simp only [gram, Matrix.smul_apply, smul_eq_mul, mul_right_inj' hk, Matrix.mul_apply, Fin.sum_univ_four,
      Matrix.transpose_apply, used, sent] at h1 h2
    simp at h1 h2
    rcases h1 with h1 | h1
    · exact h1
    · rw [h1] at h2 ⊢
      simp at h2
      exact h2.symm
  · intro h
    unfold used sent
    dsimp only
    rw [h]

/-- integrity part of a dual-frequency correction or ephemeris -/
def putDf (o : Obad) (msg : BitBuf) (sat : Int) (i : Nat) : Obad := { o with
  cov := Dict.set o.cov sat (gram (covScale msg (i + 109)) (used msg (i + 109))), scl := Dict.set o.scl sat (covScale msg (i + 109))
  dfrei := Dict.set o.dfrei sat (bitsAt msg (i + 208) 4), dRcorr := Dict.set o.dRcorr sat (bitsAt msg (i + 212) 4 / 15) }

/-- **Dual-frequency correction** (type 32): besides the correction (C61) it gives the covariance and the integrity indicators of
its satellite; a message without satellite gives none. -/
theorem corr32_message (s : St) {src prn i : Nat} {msg : BitBuf} (hk : kind src prn msg = some (32, i))
    (hl : i + 216 ≤ msg.length) (hi : 14 ≤ msg.length) :
    ∃ b, Sbas.corr32 s.base msg i = .ok (b, i + 216) ∧
      decode s src prn msg = .ok (
        if bitsAt msg i 8 = 0 ∨ Sbas.slot2sat (bitsAt msg i 8) = 0 then { noted s prn with base := b }
        else { noted s prn with base := b, obad := putDf s.obad msg (Sbas.slot2sat (bitsAt msg i 8)) i }) := by
  have hb : ∃ b, Sbas.corr32 s.base msg i = .ok (b, i + 216) := by
    unfold Sbas.corr32
    rw [readU_at (b := msg) (k := i) (n := 8) (by omega), Py.okBind]
    rw [readU_at (b := msg) (k := i + 8) (n := 10) (by omega), Py.okBind]
    by_cases h : bitsAt msg i 8 = 0
    · rw [if_pos h]; exact ⟨_, rfl⟩
    · rw [if_neg h]
      rw [readS_at (b := msg) (k := i + 18) (n := 11) (by omega), Py.okBind]
      rw [readS_at (b := msg) (k := i + 29) (n := 11) (by omega), Py.okBind]
      rw [readS_at (b := msg) (k := i + 40) (n := 11) (by omega), Py.okBind]
      rw [readS_at (b := msg) (k := i + 51) (n := 12) (by omega), Py.okBind]
      rw [readS_at (b := msg) (k := i + 63) (n := 8) (by omega), Py.okBind]
      rw [readS_at (b := msg) (k := i + 71) (n := 8) (by omega), Py.okBind]
      rw [readS_at (b := msg) (k := i + 79) (n := 8) (by omega), Py.okBind]
      rw [readS_at (b := msg) (k := i + 87) (n := 9) (by omega), Py.okBind]
      rw [readU_at (b := msg) (k := i + 96) (n := 13) (by omega), Py.okBind]
      rw [readU_at (b := msg) (k := i + 109) (n := 99) (by omega), Py.okBind]
      rw [readU_at (b := msg) (k := i + 208) (n := 8) (by omega), Py.okBind]
      dsimp only
      split
      · exact ⟨_, rfl⟩
      · exact ⟨_, rfl⟩
  obtain ⟨b, hb⟩ := hb
  refine ⟨b, hb, ?_⟩
  rw [decode_kind hk hi]
  show Sbas.corr32 s.base msg i >>= _ = _
  rw [hb, Py.okBind]
  show corr32 (noted s prn) b msg i = _
  unfold corr32
  rw [readU_at (b := msg) (k := i) (n := 8) (by omega), Py.okBind]
  by_cases h : bitsAt msg i 8 = 0
  · rw [if_pos h, if_pos (Or.inl h)]; rfl
  · rw [if_neg h, cov_ok (by omega), Py.okBind]
    dsimp only
    rw [readU_at (b := msg) (k := i + 208) (n := 4) (by omega), Py.okBind]
    rw [readU_at (b := msg) (k := i + 212) (n := 4) (by omega), Py.okBind]
    by_cases h2 : Sbas.slot2sat (bitsAt msg i 8) = 0
    · rw [if_pos h2, if_pos (Or.inr h2)]; rfl
    · rw [if_neg h2, if_neg (fun x => x.elim h h2)]; rfl

/-- systems of type 37 in order -/
def systems : List Sys := [.gps, .glo, .gal, .bds, .sbs, .qzs]

/-- units of the range errors of the integrity indicators -/
def dfreUnit : List ℚ := [1 / 16, 1 / 8, 1 / 8, 1 / 8, 1 / 8, 1 / 4, 1 / 4, 1 / 4, 1 / 4, 1 / 4, 1 / 2, 1 / 2, 1, 3, 6]

/-- **Degradation parameters of the dual-frequency service** (type 37) -/
theorem obad_message (s : St) {src prn i : Nat} {msg : BitBuf} (hk : kind src prn msg = some (37, i))
    (hl : i + 214 ≤ msg.length) (hi : 14 ≤ msg.length) :
    decode s src prn msg = .ok { noted s prn with obad := { s.obad with
      dt32 := 6 * num l37 msg i .iv32, dt39 := 6 * num l37 msg i .iv39, Cer := num l37 msg i .Cer / 2, Ccov := num l37 msg i .Ccov / 10
      Icorr := systems.zipIdx.map fun x => (x.1, 6 * (num l37s msg (i + 25 + 21 * x.2) .Icorr : ℚ))
      Ccorr := systems.zipIdx.map fun x => (x.1, (num l37s msg (i + 25 + 21 * x.2) .Ccorr : ℚ) / 100)
      Rcorr := systems.zipIdx.map fun x => (x.1, (num l37s msg (i + 25 + 21 * x.2) .Rcorr : ℚ) / 5)
      dfreiTbl := (dfreUnit.zipIdx.map fun x => x.1 * (bitsAt msg (i + 151 + 4 * x.2) 4 : ℚ)) ++ s.obad.dfreiTbl.drop 15
      tid := bitsAt msg (i + 211) 3 } } := by
  rw [decode_kind hk hi]
  show obad37 (noted s prn) msg i = _
  unfold obad37
  rw [readU_at (b := msg) (k := i) (n := 6) (by omega), Py.okBind]
  rw [readU_at (b := msg) (k := i + 6) (n := 6) (by omega), Py.okBind]
  rw [readU_at (b := msg) (k := i + 12) (n := 6) (by omega), Py.okBind]
  rw [readU_at (b := msg) (k := i + 18) (n := 7) (by omega), Py.okBind]
  have h6 : ∀ x ∈ systems.zipIdx, x.2 < 6 := by decide
  have h15 : ∀ x ∈ dfreUnit.zipIdx, x.2 < 15 := by
    intro x hx
    have := List.mem_zipIdx hx
    have l : dfreUnit.length = 15 := rfl
    omega
  rw [show sysT = systems from rfl, show sclT = dfreUnit from rfl,
    mapM_ok (g := fun x : Sys × Nat => (x.1, 6 * (num l37s msg (i + 25 + 21 * x.2) .Icorr : ℚ),
      (num l37s msg (i + 25 + 21 * x.2) .Ccorr : ℚ) / 100, (num l37s msg (i + 25 + 21 * x.2) .Rcorr : ℚ) / 5)) _ ?_, Py.okBind,
    mapM_ok (g := fun x : ℚ × Nat => x.1 * (bitsAt msg (i + 151 + 4 * x.2) 4 : ℚ)) _ ?_, Py.okBind]
  · rw [readU_at (b := msg) (k := i + 211) (n := 3) (by omega), Py.okBind]
    simp only [l37_iv32, l37_iv39, l37_Cer, l37_Ccov, Int.cast_natCast, Nat.add_zero, List.map_map]
    rw [mul_comm (6 : ℚ), mul_comm (6 : ℚ)]
    norm_num [div_eq_mul_inv]
    rfl
  · intro x hx
    have := h15 x hx
    rw [readU_at (by omega), Py.okBind, mul_comm]
    rfl
  · rintro ⟨sys, k⟩ hx
    have hk6 : k < 6 := h6 _ hx
    unfold obadSys
    dsimp only
    rw [readU_at (b := msg) (k := i + 25 + 21 * k) (n := 5) (by omega), Py.okBind,
      readU_at (b := msg) (k := i + 25 + 21 * k + 5) (n := 8) (by omega), Py.okBind,
      readU_at (b := msg) (k := i + 25 + 21 * k + 13) (n := 8) (by omega), Py.okBind]
    simp only [l37s_Icorr, l37s_Ccorr, l37s_Rcorr, Int.cast_natCast, Nat.add_zero]
    rw [mul_comm (6 : ℚ)]
    norm_num [div_eq_mul_inv]
    rfl

/-- first part of the ephemeris of a message -/
def part1 (msg : BitBuf) (i : Nat) : Eph := {
  sat := Sbas.slot2sat (num l39 msg i .slot)
  cuc := sc 19 (sc2rad / 2 ^ 19 / 10000) (num l39 msg i .cuc)
  cus := sc 19 (sc2rad / 2 ^ 19 / 10000) (num l39 msg i .cus)
  idot := sc 22 (7 / 6 * sc2rad / 2 ^ 21 / 1000000) (num l39 msg i .idot)
  omg := sc 34 (sc2rad / 2 ^ 33) (num l39 msg i .omg)
  Omg0 := sc 34 (sc2rad / 2 ^ 33) (num l39 msg i .Omg0)
  M0 := sc 34 (sc2rad / 2 ^ 33) (num l39 msg i .M0)
  af0 := sc 25 (1 / 50 / 299792458) (num l39 msg i .af0)
  af1 := sc 16 (1 / 25000 / 299792458) (num l39 msg i .af1) }

/-- an ephemeris with the second part of a message received at a time -/
def withPart2 (e : Eph) (time : GTime) (msg : BitBuf) (i : Nat) : Eph := { e with
  i0 := num l40 msg i .i0 * sc2rad / 2 ^ 33, e := num l40 msg i .e / 2 ^ 30, a := num l40 msg i .a / 50
  toe := tod2tow (16 * num l40 msg i .te) time, toc := tod2tow (16 * num l40 msg i .te) time }

/-- **First part of an ephemeris** (type 39) -/
theorem eph39_message (s : St) {src prn i : Nat} {msg : BitBuf} (hk : kind src prn msg = some (39, i))
    (hl : i + 216 ≤ msg.length) (hi : 14 ≤ msg.length) :
    decode s src prn msg = .ok { noted s prn with iodg := num l39 msg i .iodg, eph := some (part1 msg i) } := by
  rw [decode_kind hk hi]
  show eph39 (noted s prn) msg i = _
  unfold eph39
  rw [readU_at (b := msg) (k := i) (n := 6) (by omega), Py.okBind]
  rw [readU_at (b := msg) (k := i + 6) (n := 2) (by omega), Py.okBind]
  rw [readU_at (b := msg) (k := i + 8) (n := 5) (by omega), Py.okBind]
  rw [readS_at (b := msg) (k := i + 13) (n := 19) (by omega), Py.okBind]
  rw [readS_at (b := msg) (k := i + 32) (n := 19) (by omega), Py.okBind]
  rw [readS_at (b := msg) (k := i + 51) (n := 22) (by omega), Py.okBind]
  rw [readS_at (b := msg) (k := i + 73) (n := 34) (by omega), Py.okBind]
  rw [readS_at (b := msg) (k := i + 107) (n := 34) (by omega), Py.okBind]
  rw [readS_at (b := msg) (k := i + 141) (n := 34) (by omega), Py.okBind]
  rw [readS_at (b := msg) (k := i + 175) (n := 25) (by omega), Py.okBind]
  rw [readS_at (b := msg) (k := i + 200) (n := 16) (by omega), Py.okBind]
  unfold part1
  simp only [l39_slot, l39_iodg, l39_provider, l39_cuc, l39_cus, l39_idot, l39_omg, l39_Omg0, l39_M0, l39_af0, l39_af1, Nat.add_zero]
  norm_num [sc, Sval.svalSbas, div_eq_mul_inv]
  rfl

/-- **Second part of an ephemeris** (type 40): with the issue of the first part it completes the ephemeris and gives the
integrity data of its satellite, with another one it changes nothing. -/
theorem eph40_message (s : St) {src prn i : Nat} {msg : BitBuf} (hk : kind src prn msg = some (40, i))
    (hl : i + 216 ≤ msg.length) (hi : 14 ≤ msg.length) :
    decode s src prn msg =
      if num l40 msg i .iodg ≠ s.iodg then .ok (noted s prn) else
      match s.eph with
      | none => .error .attributeError
      | some e => .ok { noted s prn with eph := some (withPart2 e s.base.time msg i), obad := putDf s.obad msg e.sat i } := by
  rw [decode_kind hk hi]
  show eph40 (noted s prn) msg i = _
  unfold eph40
  rw [readU_at (b := msg) (k := i) (n := 2) (by omega), Py.okBind]
  have e0 : num l40 msg i .iodg = bitsAt msg i 2 := l40_iodg msg i
  rw [e0]
  by_cases h : (bitsAt msg i 2 : Int) ≠ s.iodg
  · rw [if_pos h, if_pos (show (bitsAt msg i 2 : Int) ≠ (noted s prn).iodg from h)]; rfl
  · rw [if_neg h, if_neg (show ¬ (bitsAt msg i 2 : Int) ≠ (noted s prn).iodg from h)]
    rw [readU_at (b := msg) (k := i + 2) (n := 33) (by omega), Py.okBind]
    rw [readU_at (b := msg) (k := i + 35) (n := 30) (by omega), Py.okBind]
    rw [readU_at (b := msg) (k := i + 65) (n := 31) (by omega), Py.okBind]
    rw [readU_at (b := msg) (k := i + 96) (n := 13) (by omega), Py.okBind]
    show (match s.eph with | none => _ | some eph => _) = _
    rcases s.eph with _ | e
    · rfl
    · dsimp only
      rw [cov_ok (by omega), Py.okBind]
      rw [readU_at (b := msg) (k := i + 208) (n := 4) (by omega), Py.okBind]
      rw [readU_at (b := msg) (k := i + 212) (n := 4) (by omega), Py.okBind]
      unfold withPart2 putDf
      simp only [l40_iodg, l40_i0, l40_e, l40_a, l40_te, Int.cast_natCast, mul_comm (16 : ℚ)]
      norm_num [div_eq_mul_inv]
      rfl

/-- **The satellite of an ephemeris is not the SBAS satellite of its slot**: slots 1 to 32 are taken for GPS satellites. -/
theorem eph39_satellite (msg : BitBuf) (i : Nat) :
    (part1 msg i).sat = (let k := num l39 msg i .slot; if 1 ≤ k ∧ k ≤ 32 then k else if 38 ≤ k then k + 111 else 0) := by
  show Sbas.slot2sat (num l39 msg i .slot) = _
  rw [l39_slot]
  have := bits_six msg (i + 0)
  generalize bitsAt msg (i + 0) 6 = k at *
  unfold Sbas.slot2sat prn2sat
  simp only [Sat.gloMin]
  split_ifs <;> omega

/-- the almanac at a place of a message of type 47 is taken over, unless it is empty -/
def addAlm47 (s : St) (msg : BitBuf) (j : Nat) : St :=
  let al : Almanac := .alm (650 * num l47 msg j .a) (num l47 msg j .e / 256) (num l47 msg j .i0 * sc2rad / 8192)
    (num l47 msg j .omg * sc2rad / 8192) (num l47 msg j .Omg0 * sc2rad / 8192) (num l47 msg j .OmgD / 1000000000) 
    (num l47 msg j .M0 * sc2rad / 16384) (tod2tow (1800 * num l47 msg j .ta) s.base.time)
  if num l47 msg j .slot = 0 then s else { s with alm := Dict.set s.alm (num l47 msg j .slot + 180) al }

theorem alm47Item_ok (s : St) {msg : BitBuf} {i : Nat} (hl : i + 106 ≤ msg.length) :
    alm47Item s msg i = .ok (addAlm47 s msg i) := by
  unfold alm47Item addAlm47
  rw [readU_at (b := msg) (k := i) (n := 6) (by omega), Py.okBind]
  rw [readU_at (b := msg) (k := i + 6) (n := 5) (by omega), Py.okBind]
  rw [readU_at (b := msg) (k := i + 11) (n := 1) (by omega), Py.okBind]
  simp only [l47_slot, l47_provider, l47_bi, l47_a, l47_e, l47_i0, l47_omg, l47_Omg0, l47_OmgD, l47_M0, l47_ta, Int.cast_natCast, Nat.add_zero]
  by_cases h : bitsAt msg i 6 = 0
  · rw [if_pos h, if_pos (by omega)]; rfl
  · rw [if_neg h, if_neg (by omega)]
    rw [readU_at (b := msg) (k := i + 12) (n := 16) (by omega), Py.okBind]
    rw [readU_at (b := msg) (k := i + 28) (n := 8) (by omega), Py.okBind]
    rw [readU_at (b := msg) (k := i + 36) (n := 13) (by omega), Py.okBind]
    rw [readS_at (b := msg) (k := i + 49) (n := 14) (by omega), Py.okBind]
    rw [readS_at (b := msg) (k := i + 63) (n := 14) (by omega), Py.okBind]
    rw [readS_at (b := msg) (k := i + 77) (n := 8) (by omega), Py.okBind]
    rw [readS_at (b := msg) (k := i + 85) (n := 15) (by omega), Py.okBind]
    rw [readU_at (b := msg) (k := i + 100) (n := 6) (by omega), Py.okBind]
    have e : prn2sat .sbs (((bitsAt msg i 6 : Nat) : Int) + 119) = bitsAt msg i 6 + 180 := by
      unfold prn2sat; simp only [Sat.sbsMin]; omega
    rw [e, mul_comm (650 : ℚ), mul_comm (1800 : ℚ)]
    norm_num [div_eq_mul_inv]
    rfl

/-- **Almanac message of the dual-frequency service** (type 47) -/
theorem alm47_message (s : St) {src prn i : Nat} {msg : BitBuf} (hk : kind src prn msg = some (47, i))
    (hl : i + 212 ≤ msg.length) (hi : 14 ≤ msg.length) :
    decode s src prn msg = .ok (addAlm47 (addAlm47 (noted s prn) msg i) msg (i + 106)) := by
  rw [decode_kind hk hi]
  show alm47 (noted s prn) msg i = _
  unfold alm47
  rw [alm47Item_ok _ (by omega), Py.okBind, alm47Item_ok _ (by omega)]

/-- what a message of a type leaves as it was -/
structure Keeps (mt : Nat) (s s' : St) : Prop where
  ref : s'.satRef = s.satRef
  seph : mt ≠ 9 → s'.seph = s.seph
  deg : mt ≠ 10 → s'.degPrm = s.degPrm
  alm : mt ≠ 17 → mt ≠ 47 → s'.alm = s.alm
  sinfo : mt ≠ 27 → s'.sinfo = s.sinfo
  obad : mt ≠ 28 → mt ≠ 32 → mt ≠ 37 → mt ≠ 40 → s'.obad = s.obad
  eph : mt ≠ 39 → mt ≠ 40 → s'.eph = s.eph
  iodg : mt ≠ 39 → s'.iodg = s.iodg
  base : mt ∈ [9, 10, 12, 17, 27, 28, 37, 39, 40, 47] → s'.base = s.base

theorem withBase_post (s : St) (r : Py (Sbas.St × Nat)) : Post (withBase s r) fun s' => ∃ b, s' = { s with base := b } := by
  refine Post.bind_any fun x => ?_
  obtain ⟨b, k⟩ := x
  exact Post.pure ⟨b, rfl⟩

theorem ranging_post (s : St) (msg : BitBuf) (i : Nat) : Post (ranging s msg i) fun s' => ∃ x, s' = { s with seph := x } := by
  unfold ranging
  iterate 13 refine Post.bind_any fun _ => ?_
  refine Post.ite (fun _ => Post.pure ⟨s.seph, rfl⟩) fun _ => ?_
  exact Post.bind_any fun _ => Post.pure ⟨_, rfl⟩

theorem deg_post (s : St) (msg : BitBuf) (i : Nat) : Post (degradationParam s msg i) fun s' => ∃ x, s' = { s with degPrm := x } := by
  unfold degradationParam
  iterate 16 refine Post.bind_any fun _ => ?_
  exact Post.pure ⟨_, rfl⟩

theorem utc_post (s : St) (msg : BitBuf) (i : Nat) : Post (utc s msg i) fun s' => s' = s := by
  unfold utc
  iterate 13 refine Post.bind_any fun _ => ?_
  exact Post.pure rfl

theorem almItem_post (s : St) (msg : BitBuf) (t : GTime) (i : Nat) :
    Post (almItem s msg t i) fun s' => ∃ x, s' = { s with alm := x } := by
  unfold almItem
  iterate 8 refine Post.bind_any fun _ => ?_
  exact Post.ite (fun _ => Post.pure ⟨s.alm, rfl⟩) fun _ => Post.pure ⟨_, rfl⟩

theorem almanac_post (s : St) (msg : BitBuf) (i : Nat) : Post (almanac s msg i) fun s' => ∃ x, s' = { s with alm := x } := by
  unfold almanac
  refine Post.bind_any fun _ => ?_
  refine Post.bind (almItem_post s msg _ i) ?_
  rintro _ ⟨x, rfl⟩
  refine Post.bind (almItem_post _ msg _ _) ?_
  rintro _ ⟨y, rfl⟩
  refine Post.mono (almItem_post _ msg _ _) ?_
  rintro _ ⟨z, rfl⟩
  exact ⟨z, rfl⟩

theorem service_post (s : St) (msg : BitBuf) (i : Nat) : Post (service s msg i) fun s' => ∃ x, s' = { s with sinfo := x } := by
  unfold service
  iterate 13 refine Post.bind_any fun _ => ?_
  exact Post.pure ⟨_, rfl⟩

theorem covItem_post (s : St) (msg : BitBuf) (i : Nat) : Post (covItem s msg i) fun s' => ∃ x, s' = { s with obad := x } := by
  unfold covItem
  refine Post.bind_any fun _ => Post.bind_any ?_
  rintro ⟨c, k⟩
  exact Post.bind_any fun _ => Post.pure ⟨_, rfl⟩

theorem cov28_post (s : St) (msg : BitBuf) (i : Nat) : Post (cov28 s msg i) fun s' => ∃ x, s' = { s with obad := x } := by
  unfold cov28
  refine Post.bind_any fun _ => Post.ite (fun _ => Post.pure ⟨s.obad, rfl⟩) fun _ => ?_
  refine Post.bind (covItem_post s msg _) ?_
  rintro _ ⟨x, rfl⟩
  refine Post.mono (covItem_post _ msg _) ?_
  rintro _ ⟨y, rfl⟩
  exact ⟨y, rfl⟩

theorem corr32_post (s : St) (b : Sbas.St) (msg : BitBuf) (i : Nat) :
    Post (corr32 s b msg i) fun s' => ∃ x, s' = { s with base := b, obad := x } := by
  unfold corr32
  refine Post.bind_any fun _ => Post.ite (fun _ => Post.pure ⟨s.obad, rfl⟩) fun _ => Post.bind_any ?_
  rintro ⟨c, k⟩
  refine Post.bind_any fun _ => Post.bind_any fun _ => ?_
  exact Post.ite (fun _ => Post.pure ⟨s.obad, rfl⟩) fun _ => Post.pure ⟨_, rfl⟩

theorem obad37_post (s : St) (msg : BitBuf) (i : Nat) : Post (obad37 s msg i) fun s' => ∃ x, s' = { s with obad := x } := by
  unfold obad37
  iterate 7 refine Post.bind_any fun _ => ?_
  exact Post.pure ⟨_, rfl⟩

theorem eph39_post (s : St) (msg : BitBuf) (i : Nat) :
    Post (eph39 s msg i) fun s' => ∃ x y, s' = { s with iodg := x, eph := y } := by
  unfold eph39
  iterate 11 refine Post.bind_any fun _ => ?_
  exact Post.pure ⟨_, _, rfl⟩

theorem eph40_post (s : St) (msg : BitBuf) (i : Nat) :
    Post (eph40 s msg i) fun s' => ∃ x y, s' = { s with eph := x, obad := y } := by
  unfold eph40
  refine Post.bind_any fun _ => Post.ite (fun _ => Post.pure ⟨s.eph, s.obad, rfl⟩) fun _ => ?_
  iterate 4 refine Post.bind_any fun _ => ?_
  split
  · exact Post.error
  · refine Post.bind_any ?_
    rintro ⟨c, k⟩
    refine Post.bind_any fun _ => Post.bind_any fun _ => ?_
    exact Post.pure ⟨_, _, rfl⟩

theorem alm47Item_post (s : St) (msg : BitBuf) (i : Nat) :
    Post (alm47Item s msg i) fun s' => ∃ x, s' = { s with alm := x } := by
  unfold alm47Item
  iterate 3 refine Post.bind_any fun _ => ?_
  refine Post.ite (fun _ => Post.pure ⟨s.alm, rfl⟩) fun _ => ?_
  iterate 8 refine Post.bind_any fun _ => ?_
  exact Post.pure ⟨_, rfl⟩

theorem alm47_post (s : St) (msg : BitBuf) (i : Nat) : Post (alm47 s msg i) fun s' => ∃ x, s' = { s with alm := x } := by
  unfold alm47
  refine Post.bind (alm47Item_post s msg _) ?_
  rintro _ ⟨x, rfl⟩
  refine Post.mono (alm47Item_post _ msg _) ?_
  rintro _ ⟨y, rfl⟩
  exact ⟨y, rfl⟩

theorem Keeps.refl (mt : Nat) (s : St) : Keeps mt s s :=
  ⟨rfl, fun _ => rfl, fun _ => rfl, fun _ _ => rfl, fun _ => rfl, fun _ _ _ _ => rfl, fun _ _ => rfl, fun _ => rfl, fun _ => rfl⟩

theorem keeps_base {mt : Nat} (h : mt ∉ [9, 10, 12, 17, 27, 28, 37, 39, 40, 47]) (s : St) (b : Sbas.St) :
    Keeps mt s { s with base := b } :=
  ⟨rfl, fun _ => rfl, fun _ => rfl, fun _ _ => rfl, fun _ => rfl, fun _ _ _ _ => rfl, fun _ _ => rfl, fun _ => rfl,
    fun x => absurd x h⟩

theorem body_keeps (s : St) (mt i : Nat) (msg : BitBuf) : Post (body s mt i msg) (Keeps mt s) := by
  have B : ∀ (r : Py (Sbas.St × Nat)), mt ∉ [9, 10, 12, 17, 27, 28, 37, 39, 40, 47] → Post (withBase s r) (Keeps mt s) := by
    intro r h
    refine Post.mono (withBase_post s r) ?_
    rintro _ ⟨b, rfl⟩
    exact keeps_base h s b
  unfold body
  refine Post.ite (fun h => B _ (by subst h; decide)) fun _ => ?_
  refine Post.ite (fun h => B _ (by rcases h with h | h | h | h <;> subst h <;> decide)) fun _ => ?_
  refine Post.ite (fun h => B _ (by subst h; decide)) fun _ => ?_
  refine Post.ite (fun h => B _ (by subst h; decide)) fun _ => ?_
  refine Post.ite (fun h => ?_) fun _ => ?_
  · refine Post.mono (ranging_post s msg i) ?_
    rintro _ ⟨x, rfl⟩
    exact ⟨rfl, fun c => absurd h c, fun _ => rfl, fun _ _ => rfl, fun _ => rfl, fun _ _ _ _ => rfl, fun _ _ => rfl, fun _ => rfl, fun _ => rfl⟩
  refine Post.ite (fun h => ?_) fun _ => ?_
  · refine Post.mono (deg_post s msg i) ?_
    rintro _ ⟨x, rfl⟩
    exact ⟨rfl, fun _ => rfl, fun c => absurd h c, fun _ _ => rfl, fun _ => rfl, fun _ _ _ _ => rfl, fun _ _ => rfl, fun _ => rfl, fun _ => rfl⟩
  refine Post.ite (fun h => ?_) fun _ => ?_
  · refine Post.mono (utc_post s msg i) ?_
    rintro _ rfl
    exact Keeps.refl _ _
  refine Post.ite (fun h => ?_) fun _ => ?_
  · refine Post.mono (almanac_post s msg i) ?_
    rintro _ ⟨x, rfl⟩
    exact ⟨rfl, fun _ => rfl, fun _ => rfl, fun c => absurd h c, fun _ => rfl, fun _ _ _ _ => rfl, fun _ _ => rfl, fun _ => rfl, fun _ => rfl⟩
  refine Post.ite (fun h => B _ (by subst h; decide)) fun _ => ?_
  refine Post.ite (fun h => B _ (by subst h; decide)) fun _ => ?_
  refine Post.ite (fun h => B _ (by subst h; decide)) fun _ => ?_
  refine Post.ite (fun h => B _ (by subst h; decide)) fun _ => ?_
  refine Post.ite (fun h => ?_) fun _ => ?_
  · refine Post.mono (service_post s msg i) ?_
    rintro _ ⟨x, rfl⟩
    exact ⟨rfl, fun _ => rfl, fun _ => rfl, fun _ _ => rfl, fun c => absurd h c, fun _ _ _ _ => rfl, fun _ _ => rfl, fun _ => rfl, fun _ => rfl⟩
  refine Post.ite (fun h => ?_) fun _ => ?_
  · refine Post.mono (cov28_post s msg i) ?_
    rintro _ ⟨x, rfl⟩
    exact ⟨rfl, fun _ => rfl, fun _ => rfl, fun _ _ => rfl, fun _ => rfl, fun c => absurd h c, fun _ _ => rfl, fun _ => rfl, fun _ => rfl⟩
  refine Post.ite (fun h => B _ (by subst h; decide)) fun _ => ?_
  refine Post.ite (fun h => ?_) fun _ => ?_
  · refine Post.bind_any ?_
    rintro ⟨b, k⟩
    refine Post.mono (corr32_post s b msg i) ?_
    rintro _ ⟨x, rfl⟩
    exact ⟨rfl, fun _ => rfl, fun _ => rfl, fun _ _ => rfl, fun _ => rfl, fun _ c => absurd h c, fun _ _ => rfl, fun _ => rfl,
      fun x => absurd x (by subst h; decide)⟩
  refine Post.ite (fun h => B _ (by subst h; decide)) fun _ => ?_
  refine Post.ite (fun h => B _ (by rcases h with h | h <;> subst h <;> decide)) fun _ => ?_
  refine Post.ite (fun h => ?_) fun _ => ?_
  · refine Post.mono (obad37_post s msg i) ?_
    rintro _ ⟨x, rfl⟩
    exact ⟨rfl, fun _ => rfl, fun _ => rfl, fun _ _ => rfl, fun _ => rfl, fun _ _ c => absurd h c, fun _ _ => rfl, fun _ => rfl, fun _ => rfl⟩
  refine Post.ite (fun h => ?_) fun _ => ?_
  · refine Post.mono (eph39_post s msg i) ?_
    rintro _ ⟨x, y, rfl⟩
    exact ⟨rfl, fun _ => rfl, fun _ => rfl, fun _ _ => rfl, fun _ => rfl, fun _ _ _ _ => rfl, fun c => absurd h c, fun c => absurd h c, fun _ => rfl⟩
  refine Post.ite (fun h => ?_) fun _ => ?_
  · refine Post.mono (eph40_post s msg i) ?_
    rintro _ ⟨x, y, rfl⟩
    exact ⟨rfl, fun _ => rfl, fun _ => rfl, fun _ _ => rfl, fun _ => rfl, fun _ _ _ c => absurd h c, fun _ c => absurd h c, fun _ => rfl, fun _ => rfl⟩
  refine Post.ite (fun h => ?_) fun _ => ?_
  · refine Post.mono (alm47_post s msg i) ?_
    rintro _ ⟨x, rfl⟩
    exact ⟨rfl, fun _ => rfl, fun _ => rfl, fun _ c => absurd h c, fun _ => rfl, fun _ _ _ _ => rfl, fun _ _ => rfl, fun _ => rfl, fun _ => rfl⟩
  exact Post.pure (Keeps.refl _ _)

/-- **Frames**: every message changes only what its type is about. -/
theorem frames {s s' : St} {src prn mt i : Nat} {msg : BitBuf} (hk : kind src prn msg = some (mt, i)) (hl : 14 ≤ msg.length)
    (h : decode s src prn msg = .ok s') : Keeps mt (noted s prn) s' := by
  rw [decode_kind hk hl] at h
  exact (body_keeps _ mt i msg).out s' h

/-- **Transmissions of QZSS** with an unknown preamble or type raise and change nothing. -/
theorem unknown_raises (s : St) {src prn : Nat} {msg : BitBuf} (hl : 14 ≤ msg.length) :
    kind src prn msg = none ↔ decode s src prn msg = .error .keyError ∧ header src prn msg = .error .keyError := by
  unfold decode
  rw [header_kind src prn msg hl]
  rcases kind src prn msg with _ | x
  · exact ⟨fun _ => ⟨rfl, rfl⟩, fun _ => rfl⟩
  · exact ⟨(fun h => nomatch h), (fun h => nomatch h.2)⟩

theorem withBase_ok {s s' : St} {r : Py (Sbas.St × Nat)} (h : withBase s r = .ok s') :
    (r >>= fun x => pure x.1 : Py Sbas.St) = .ok s'.base := by
  unfold withBase at h
  rcases r with e | ⟨b, k⟩
  · cases h
  · cases h; rfl

/-- **The corrections** (C26, C61) are decoded the same way as part of all messages. -/
theorem decode_base {s s' : St} {src prn : Nat} {msg : BitBuf} (hq : ¬ (src = 1 ∧ 184 ≤ prn ∧ prn ≤ 189))
    (hl : 14 ≤ msg.length) (h : decode s src prn msg = .ok s') :
    Sbas.decode s.base (decide (src ≠ 0)) msg = .ok s'.base := by
  obtain ⟨mt, i, hk, hm, hi⟩ : ∃ mt i, kind src prn msg = some (mt, i) ∧
      readU msg (if (decide (src ≠ 0)) = true then 4 else 8) 6 = .ok mt ∧ i = (if (decide (src ≠ 0)) = true then 10 else 14) := by
    unfold kind
    by_cases h0 : src = 0
    · rw [if_pos h0]
      refine ⟨_, _, rfl, ?_, ?_⟩
      · rw [if_neg (by simp [h0])]; exact readU_at (by omega)
      · rw [if_neg (by simp [h0])]
    · rw [if_neg h0, if_neg hq]
      refine ⟨_, _, rfl, ?_, ?_⟩
      · rw [if_pos (by simp [h0])]; exact readU_at (by omega)
      · rw [if_pos (by simp [h0])]
  have hf := frames hk hl h
  rw [decode_kind hk hl] at h
  unfold Sbas.decode
  rw [hm, Py.okBind, ← hi]
  clear hk hm hi
  have K : ∀ t, mt = t → t ∈ [9, 10, 12, 17, 27, 28, 37, 39, 40, 47] → s.base = s'.base := fun t e ht => (hf.base (e ▸ ht)).symm
  by_cases c1 : mt = 1
  · subst c1; exact withBase_ok h
  by_cases c2 : mt = 2
  · subst c2; exact withBase_ok h
  by_cases c3 : mt = 3
  · subst c3; exact withBase_ok h
  by_cases c4 : mt = 4
  · subst c4; exact withBase_ok h
  by_cases c5 : mt = 5
  · subst c5; exact withBase_ok h
  by_cases c6 : mt = 6
  · subst c6; exact withBase_ok h
  by_cases c7 : mt = 7
  · subst c7; exact withBase_ok h
  by_cases c18 : mt = 18
  · subst c18; exact withBase_ok h
  by_cases c24 : mt = 24
  · subst c24; exact withBase_ok h
  by_cases c25 : mt = 25
  · subst c25; exact withBase_ok h
  by_cases c26 : mt = 26
  · subst c26; exact withBase_ok h
  by_cases c31 : mt = 31
  · subst c31; exact withBase_ok h
  by_cases c34 : mt = 34
  · subst c34; exact withBase_ok h
  by_cases c35 : mt = 35
  · subst c35; exact withBase_ok h
  by_cases c36 : mt = 36
  · subst c36; exact withBase_ok h
  by_cases c32 : mt = 32
  · subst c32
    have h' : (Sbas.corr32 s.base msg i >>= fun x => corr32 (noted s prn) x.1 msg i) = .ok s' := h
    show (Sbas.corr32 s.base msg i >>= fun x => pure x.1) = _
    rcases hx : Sbas.corr32 s.base msg i with e | ⟨b, k⟩
    · rw [hx] at h'; cases h'
    · rw [hx] at h'
      obtain ⟨o, rfl⟩ := (corr32_post (noted s prn) b msg i).out s' h'
      rfl
  rw [if_neg c1, if_neg (by omega), if_neg c6, if_neg c7, if_neg c18, if_neg c24, if_neg c25, if_neg c26, if_neg c31, if_neg c32,
    if_neg c34, if_neg (by omega)]
  have e : s.base = s'.base := by
    by_cases c9 : mt ∈ [9, 10, 12, 17, 27, 28, 37, 39, 40, 47]
    · exact K mt rfl c9
    · have : body (noted s prn) mt i msg = .ok (noted s prn) := by
        simp only [List.mem_cons, List.not_mem_nil, not_or, or_false] at c9
        unfold body
        rw [if_neg c1, if_neg (by omega), if_neg c6, if_neg c7, if_neg c9.1, if_neg c9.2.1, if_neg c9.2.2.1, if_neg c9.2.2.2.1,
          if_neg c18, if_neg c24, if_neg c25, if_neg c26, if_neg c9.2.2.2.2.1, if_neg c9.2.2.2.2.2.1, if_neg c31, if_neg c32,
          if_neg c34, if_neg (by omega), if_neg c9.2.2.2.2.2.2.1, if_neg c9.2.2.2.2.2.2.2.1, if_neg c9.2.2.2.2.2.2.2.2.1,
          if_neg c9.2.2.2.2.2.2.2.2.2]
        rfl
      rw [this] at h
      cases h
      rfl
  rw [e]
  rfl

/-! ### Ephemerides over time -/

/-- a message of a source and a transmitter at a time -/
structure Call where
  time : GTime
  src : Nat
  prn : Nat
  msg : BitBuf

def step (s : St) (c : Call) : Py St := decode { s with base := { s.base with time := c.time } } c.src c.prn c.msg

def run (s : St) (cs : List Call) : Py St := cs.foldlM step s

/-- start of the data -/
def start (c : Call) : Nat := if c.src = 0 then 14 else 10

/-- a message of a type -/
def Is (n : Nat) (c : Call) : Prop := kind c.src c.prn c.msg = some (n, start c)

instance (n : Nat) (c : Call) : Decidable (Is n c) := by unfold Is; infer_instance

/-- a second part with the issue of a first part -/
def Completes (a c : Call) : Prop := Is 40 c ∧ num l40 c.msg (start c) .iodg = num l39 a.msg (start a) .iodg

instance (a c : Call) : Decidable (Completes a c) := by unfold Completes; infer_instance

/-- the ephemeris of a first part and the last of the second parts -/
def combine (a : Call) : Option Call → Eph
  | none => part1 a.msg (start a)
  | some c => withPart2 (part1 a.msg (start a)) c.time c.msg (start c)

theorem kind_start {c : Call} {mt i : Nat} (h : kind c.src c.prn c.msg = some (mt, i)) : i = start c := by
  unfold kind at h
  unfold start
  by_cases h0 : c.src = 0
  · rw [if_pos h0] at h ⊢; cases h; rfl
  · rw [if_neg h0] at h ⊢
    by_cases h1 : c.src = 1 ∧ 184 ≤ c.prn ∧ c.prn ≤ 189
    · rw [if_pos h1] at h
      obtain ⟨x, _, hx⟩ := Option.map_eq_some_iff.1 h
      cases hx; rfl
    · rw [if_neg h1] at h; cases h; rfl

/-- one step: what becomes of the ephemeris and its issue -/
theorem step_eph {s s' : St} {c : Call} (hl : 230 ≤ c.msg.length) (h : step s c = .ok s') :
    s'.iodg = (if Is 39 c then num l39 c.msg (start c) .iodg else s.iodg) ∧
    s'.eph = if Is 39 c then some (part1 c.msg (start c))
      else if Is 40 c ∧ num l40 c.msg (start c) .iodg = s.iodg then s.eph.map fun e => withPart2 e c.time c.msg (start c)
      else s.eph := by
  unfold step at h
  have hs : start c ≤ 14 := by unfold start; split <;> omega
  rcases hk : kind c.src c.prn c.msg with _ | ⟨mt, i⟩
  · have := ((unknown_raises { s with base := { s.base with time := c.time } } (by omega)).1 hk).1
    rw [this] at h
    cases h
  · have e := kind_start hk
    subst e
    have I : ∀ n, Is n c ↔ mt = n := by
      intro n
      unfold Is
      rw [hk]
      simp
    by_cases h39 : mt = 39
    · subst h39
      rw [if_pos ((I 39).2 rfl), if_pos ((I 39).2 rfl)]
      rw [eph39_message _ hk (by omega) (by omega)] at h
      cases h
      exact ⟨rfl, rfl⟩
    · rw [if_neg (fun x => h39 ((I 39).1 x)), if_neg (fun x => h39 ((I 39).1 x))]
      have hf := frames hk (by omega) h
      by_cases h40 : mt = 40
      · subst h40
        rw [eph40_message _ hk (by omega) (by omega)] at h
        dsimp only at h
        by_cases g : num l40 c.msg (start c) .iodg = s.iodg
        · rw [if_pos ⟨(I 40).2 rfl, g⟩]
          rw [if_neg (fun x : _ ≠ _ => x g)] at h
          rcases hE : s.eph with _ | e
          · rw [hE] at h; cases h
          · rw [hE] at h
            cases h
            exact ⟨rfl, rfl⟩
        · rw [if_neg (fun x : Is 40 c ∧ _ => g x.2)]
          rw [if_pos (show _ ≠ _ from g)] at h
          cases h
          exact ⟨rfl, rfl⟩
      · rw [if_neg (fun x : Is 40 c ∧ _ => h40 ((I 40).1 x.1))]
        exact ⟨hf.iodg h39, hf.eph h39 h40⟩

theorem run_snoc {s s' : St} {cs : List Call} {c : Call} (h : run s (cs ++ [c]) = .ok s') :
    ∃ s1, run s cs = .ok s1 ∧ step s1 c = .ok s' := by
  unfold run at h ⊢
  rw [List.foldlM_append] at h
  obtain ⟨s1, h1, h2⟩ := Py.bind_ok.1 h
  refine ⟨s1, h1, ?_⟩
  rw [List.foldlM_cons] at h2
  obtain ⟨s2, h3, h4⟩ := Py.bind_ok.1 h2
  cases h4
  exact h3

/-- **No ephemeris without first part** -/
theorem eph_none {cs : List Call} (hl : ∀ c ∈ cs, 230 ≤ c.msg.length) (h39 : ∀ c ∈ cs, ¬ Is 39 c) {s : St}
    (h : run {} cs = .ok s) : s.eph = none ∧ s.iodg = -1 := by
  induction cs using List.reverseRecOn generalizing s with
  | nil => cases h; exact ⟨rfl, rfl⟩
  | append_singleton cs c ih =>
    obtain ⟨s1, h1, h2⟩ := run_snoc h
    obtain ⟨i1, i2⟩ := ih (fun x hx => hl x (by simp [hx])) (fun x hx => h39 x (by simp [hx])) h1
    obtain ⟨e1, e2⟩ := step_eph (hl c (by simp)) h2
    rw [if_neg (h39 c (by simp))] at e1 e2
    refine ⟨?_, e1.trans i2⟩
    rw [e2, i1]
    split <;> rfl

/-- **The ephemeris held** is the last first part, completed by the last second part received after it with its issue. -/
theorem eph_history {pre post : List Call} {a : Call} (hl : ∀ c ∈ pre ++ a :: post, 230 ≤ c.msg.length)
    (ha : Is 39 a) (hp : ∀ c ∈ post, ¬ Is 39 c) {s : St} (h : run {} (pre ++ a :: post) = .ok s) :
    s.eph = some (combine a (post.filter fun c => Completes a c).getLast?) ∧ s.iodg = num l39 a.msg (start a) .iodg := by
  induction post using List.reverseRecOn generalizing s with
  | nil =>
    obtain ⟨s1, h1, h2⟩ := run_snoc h
    obtain ⟨e1, e2⟩ := step_eph (hl a (by simp)) h2
    rw [if_pos ha] at e1 e2
    exact ⟨e2, e1⟩
  | append_singleton post c ih =>
    rw [← List.cons_append, ← List.append_assoc] at h
    obtain ⟨s1, h1, h2⟩ := run_snoc h
    obtain ⟨i1, i2⟩ := ih (fun x hx => hl x (by
      rw [List.mem_append, List.mem_cons] at hx ⊢
      rcases hx with hx | hx | hx
      · exact Or.inl hx
      · exact Or.inr (Or.inl hx)
      · exact Or.inr (Or.inr (by simp [hx])))) (fun x hx => hp x (by simp [hx])) h1
    obtain ⟨e1, e2⟩ := step_eph (hl c (by simp)) h2
    rw [if_neg (hp c (by simp))] at e1 e2
    refine ⟨?_, e1.trans i2⟩
    rw [e2, i1, i2, List.filter_append]
    by_cases g : Completes a c
    · have f : ([c].filter fun c => decide (Completes a c)) = [c] := by simp [g]
      rw [if_pos (show _ ∧ _ from g), f, List.getLast?_append]
      rcases (post.filter fun c => decide (Completes a c)).getLast? with _ | d <;> rfl
    · have f : ([c].filter fun c => decide (Completes a c)) = [] := by simp [g]
      rw [if_neg (show ¬ (_ ∧ _) from g), f, List.append_nil]

/-- **Times of day**: reference times are within half a day of the time of reception. -/
theorem times (n : Int) (unit : ℚ) (t : GTime) (hn : t.Norm) (h0 : 0 ≤ unit * n) (h1 : unit * n < 86400) :
    (∃ d : Int, instant (tod2tow (unit * n) t) = d * 86400 + unit * n) ∧ |timediff (tod2tow (unit * n) t) t| ≤ 43200 :=
  C42.tod2tow_spec (unit * n) t hn h0 h1

/-- **Fields**: a message made of field values has these values. -/
theorem val_encode (L : Layout F) (hL : L ∈ [l9, l10, l17, l27, region, covL, l37, l37s, l39, l40, l47]) (v : F → Int) (hF : Fit L v)
    (pre post : List Bool) (f : F) (hf : f ∈ L.map (·.1)) :
    num L (pre ++ encode L v ++ post) pre.length f = v f := by
  refine num_encode L v _ _ (At.intro pre _ post) hF ?_ f hf
  revert hL
  have : ∀ L ∈ [l9, l10, l17, l27, region, covL, l37, l37s, l39, l40, l47], (L.map (·.1)).Nodup := by decide +kernel
  exact this L

/-- **Only the first region of a service message is read where it is sent.** -/
theorem service_wrong : ∃ msg : BitBuf, kind 0 131 msg = some (27, 14) ∧ msg.length = 226 ∧
    (∀ k < 5, regAt msg (14 + 22 + 35 * k) = (40, -60, 50, 30)) ∧ regAt msg (14 + 22) = (40, -60, 50, 30) ∧
    ∀ k < 5, k ≠ 0 → regAt msg (14 + 22 + 34 * k) ≠ (40, -60, 50, 30) := by
  refine ⟨natToBits 8 0x53 ++ natToBits 6 27 ++ encode l27 (fun _ => 2) ++ (List.replicate 5 (encode region (fun
    | .lat1 => 40 | .lon1 => -60 | .lat2 => 50 | _ => 30) ++ [true])).flatten ++ natToBits 15 0, ?_⟩
  decide +kernel

/-- **The issue of indexed integrity messages** (types 34 to 36) is compared with bits 214 and 215 of the message, not with its
field in bits 224 and 225: messages of the current mask are ignored and others are accepted. -/
theorem integrity_issue (s : St) {prn : Nat} {msg : BitBuf} (mt : Nat) (hm : mt = 34 ∨ mt = 35 ∨ mt = 36)
    (hk : kind 2 prn msg = some (mt, 10)) (hl : 226 ≤ msg.length) (hne : (bitsAt msg 214 2 : Int) ≠ s.base.iodm) :
    decode s 2 prn msg = .ok (noted s prn) := by
  rw [decode_kind hk (by omega)]
  rcases hm with h | h | h
  · subst h
    show withBase _ (Sbas.mt34 s.base msg 10) = _
    unfold Sbas.mt34
    rw [readU_at (b := msg) (k := 214) (n := 2) (by omega), Py.okBind, if_pos hne]
    rfl
  all_goals
    subst h
    show withBase _ (Sbas.mt3536 s.base msg 10) = _
    unfold Sbas.mt3536
    rw [readU_at (b := msg) (k := 214) (n := 2) (by omega), Py.okBind, if_pos hne]
    rfl

/-! ## Examples -/

/-- a value for each field -/
def exV : F → Int
  | .x => -5 | .vx => 3 | .z => 77 | .ura => 14 | .t0 => 5000 | .prn => 129 | .E23 => -7 | .E24 => 9 | .scale => 6 | .slot => 12
  | .iodg => 2 | .te => 300 | .M0 => -12 | .a => 40000 | _ => 1

def exMsg (mt : Nat) (d : List Bool) : BitBuf := natToBits 8 0x53 ++ natToBits 6 mt ++ d ++ List.replicate 250 false
def exMsg5 (mt : Nat) (d : List Bool) : BitBuf := natToBits 4 5 ++ natToBits 6 mt ++ d ++ List.replicate 250 false

example : kind 0 131 (exMsg 9 (encode l9 exV)) = some (9, 14) ∧ 226 ≤ (exMsg 9 (encode l9 exV)).length ∧ 0 < ref {} 131 := by
  decide +kernel
example : num l9 (exMsg 9 (encode l9 exV)) 14 .x = -5 ∧ num l9 (exMsg 9 (encode l9 exV)) 14 .ura = 14 := by decide +kernel
example : kind 0 131 (exMsg 10 (encode l10 exV)) = some (10, 14) ∧ num l10 (exMsg 10 (encode l10 exV)) 14 .Ccov = 1 := by
  decide +kernel
example : kind 0 131 (exMsg 17 (encode l17 exV)) = some (17, 14) ∧ num l17 (exMsg 17 (encode l17 exV)) 14 .prn = 129 := by
  decide +kernel
example : kind 0 131 (exMsg 28 (natToBits 2 1 ++ natToBits 6 0 ++ encode covL exV)) = some (28, 14) ∧
    num covL (exMsg 28 (natToBits 2 1 ++ natToBits 6 0 ++ encode covL exV)) 22 .E24 = 9 ∧
    bitsAt (exMsg 28 (natToBits 2 1 ++ natToBits 6 0 ++ encode covL exV)) 14 2 = 1 := by decide +kernel
example : kind 1 131 (exMsg5 32 (natToBits 8 7)) = some (32, 10) ∧ kind 1 131 (exMsg5 37 (encode l37 exV)) = some (37, 10) ∧
    kind 1 131 (exMsg5 47 (encode l47 exV)) = some (47, 10) ∧ num l47 (exMsg5 47 (encode l47 exV)) 10 .a = 40000 := by decide +kernel
/-- a transmission of QZSS with the first bits of the type 01 and the preamble 0x9a has the type 37 -/
example : kind 1 185 (natToBits 8 0x9a ++ natToBits 6 16 ++ List.replicate 250 false) = some (37, 10) ∧
    kind 1 185 (natToBits 8 0x9b ++ natToBits 6 16 ++ List.replicate 250 false) = none := by decide +kernel
/-- a message of the mask with issue 1 is ignored -/
example : kind 2 131 (exMsg5 34 (natToBits 216 1)) = some (34, 10) ∧ bitsAt (exMsg5 34 (natToBits 216 1)) 224 2 = 1 ∧
    bitsAt (exMsg5 34 (natToBits 216 1)) 214 2 ≠ 1 := by decide +kernel
example : Fit l39 exV := by unfold Fit; decide +kernel

def ex39 : Call := ⟨⟨1600000000, 0⟩, 1, 131, exMsg5 39 (encode l39 exV)⟩
def ex40 : Call := ⟨⟨1600000001, 0⟩, 1, 131, exMsg5 40 (encode l40 exV)⟩

theorem ex_facts : Is 39 ex39 ∧ ¬ Is 39 ex40 ∧ Completes ex39 ex40 ∧ 230 ≤ ex39.msg.length ∧ 230 ≤ ex40.msg.length := by decide +kernel

/-- a first and a second part make an ephemeris; its satellite is GPS 12 -/
example : ∃ s, run {} [ex39, ex40] = .ok s ∧ s.eph = some (combine ex39 (some ex40)) ∧ (combine ex39 (some ex40)).sat = 12 := by
  obtain ⟨h1, h2, h3, h4, h5⟩ := ex_facts
  have e1 : ∃ s1, step {} ex39 = .ok s1 := by
    unfold step
    exact ⟨_, eph39_message _ (show kind ex39.src ex39.prn ex39.msg = some (39, 10) from h1) (by omega) (by omega)⟩
  obtain ⟨s1, e1⟩ := e1
  obtain ⟨a1, a2⟩ := step_eph h4 e1
  rw [if_pos h1] at a1 a2
  have e2 : ∃ s2, step s1 ex40 = .ok s2 := by
    unfold step
    rw [eph40_message _ (show kind ex40.src ex40.prn ex40.msg = some (40, 10) from h3.1) (by omega) (by omega)]
    dsimp only
    rw [if_neg (fun h : _ ≠ s1.iodg => h (by rw [a1]; exact h3.2)), a2]
    exact ⟨_, rfl⟩
  obtain ⟨s2, e2⟩ := e2
  have er : run {} ([] ++ ex39 :: [ex40]) = .ok s2 := by
    show ((step {} ex39) >>= fun s => step s ex40 >>= fun s => pure s) = _
    rw [e1, Py.okBind, e2]
    rfl
  refine ⟨s2, er, ?_, ?_⟩
  · have := (eph_history (by simp [h4, h5]) h1 (by simp [h2]) er).1
    rw [this]
    have f : ([ex40].filter fun c => decide (Completes ex39 c)) = [ex40] := by simp [h3]
    rw [f]
    rfl
  · show (part1 ex39.msg 10).sat = 12
    rw [eph39_satellite]
    decide +kernel

end Verif.C81
