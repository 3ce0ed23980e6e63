/-
The CMOS real-time clock (sys_time/src/rtc.rs).
-/
namespace Verif.Rtc

/-- The clock as the code sees it: what the `n`-th access to the data port returns for each register.  Anything may happen between two
accesses. -/
abbrev Device := Nat → UInt8 → UInt8

/-- `DateTime` (sys_time/src/rtc.rs:36-44). -/
structure DateTime where
  second : UInt8
  minute : UInt8
  hour : UInt8
  day : UInt8
  month : UInt8
  year : UInt16
  deriving DecidableEq

/-- the register constants (sys_time/src/rtc.rs:13-20). -/
def regSecond : UInt8 := 0x00
def regMinute : UInt8 := 0x02
def regHour : UInt8 := 0x04
def regDay : UInt8 := 0x07
def regMonth : UInt8 := 0x08
def regYear : UInt8 := 0x09
def regA : UInt8 := 0x0A
def regB : UInt8 := 0x0B

/-- `bcd_to_binary` (sys_time/src/rtc.rs:71-73). -/
def bcdToBinary (bcd : UInt8) : UInt8 := (bcd &&& 0xF) + (bcd / 16) * 10

/-- `read_cmos_register` (sys_time/src/rtc.rs:85-90): one access; the NMI bit of the address is not part of the register number. -/
def readRegister (d : Device) (reg : UInt8) (n : Nat) : UInt8 × Nat := (d n reg, n + 1)

/-- `is_24_hour_format` (sys_time/src/rtc.rs:75-78). -/
def is24Hour (d : Device) (n : Nat) : Bool × Nat :=
  let (b, n) := readRegister d regB n
  (decide (b &&& 2 > 0), n)

/-- `is_binary_mode` (sys_time/src/rtc.rs:80-83). -/
def isBinary (d : Device) (n : Nat) : Bool × Nat :=
  let (b, n) := readRegister d regB n
  (decide (b &&& 4 > 0), n)

/-- `get_update_in_progress_flag() > 0` (sys_time/src/rtc.rs:92-94). -/
def updating (d : Device) (n : Nat) : Bool × Nat :=
  let (b, n) := readRegister d regA n
  (decide (b &&& 0x80 > 0), n)

/-- `read_datetime_register` (sys_time/src/rtc.rs:96-104). -/
def readField (d : Device) (reg : UInt8) (n : Nat) : UInt8 × Nat :=
  let (v, n) := readRegister d reg n
  let (b, n) := isBinary d n
  (if b then v else bcdToBinary v, n)

/-- `read_hour_register` (sys_time/src/rtc.rs:106-120). -/
def readHour (d : Device) (n : Nat) : UInt8 × Nat :=
  let (h, n) := readRegister d regHour n
  let (b, n) := isBinary d n
  let h := if b then h else ((h &&& 0xF) + ((h &&& 0x7F) / 16) * 10) ||| (h &&& 0x80)
  let (f, n) := is24Hour d n
  (if !f && decide (h &&& 0x80 ≠ 0) then ((h &&& 0x7F) + 12) % 24 else h, n)

/-- `read_date_time` (sys_time/src/rtc.rs:122-137). -/
def readDateTime (d : Device) (n : Nat) : DateTime × Nat :=
  let (year, n) := readField d regYear n
  let (month, n) := readField d regMonth n
  let (day, n) := readField d regDay n
  let (minute, n) := readField d regMinute n
  let (second, n) := readField d regSecond n
  let (hour, n) := readHour d n
  (⟨second, minute, hour, day, month, 2000 + year.toUInt16⟩, n)

/-- `while get_update_in_progress_flag() > 0 {}` (sys_time/src/rtc.rs:53): the number of accesses made when it ends; `none` when it has not
ended after `fuel` rounds. -/
def waitIdle (d : Device) : (fuel : Nat) → Nat → Option Nat
  | 0, _ => none
  | fuel + 1, n =>
    let (u, n) := updating d n
    if u then waitIdle d fuel n else some n

/-- `read_rtc` (sys_time/src/rtc.rs:46-68); `none` when it has not ended after `fuel` rounds. -/
def readRtc (d : Device) : (fuel : Nat) → Nat → Option (DateTime × Nat)
  | 0, _ => none
  | fuel + 1, n =>
    match waitIdle d (fuel + 1) n with
    | none => none
    | some n =>
      let (first, n) := readDateTime d n
      let (u, n) := updating d n
      if u then readRtc d fuel n else
      let (second, n) := readDateTime d n
      if first = second then some (first, n) else readRtc d fuel n

end Verif.Rtc
