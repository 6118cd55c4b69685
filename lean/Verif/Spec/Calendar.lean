import Verif.Spec.Bcd

/-! # Specification: dates beyond the range of the wire format

A date is sent as the number of a day, of 16 bits; the last day is 22 April 2038.  A time is a number of seconds since the beginning of
1970.  Nothing here refers to the model. -/

namespace Spec.Calendar

/-- The number of the day that is sent: modulo 2^16. -/
def day (t : Nat) : Nat := (unixEpochMjd + t / 86400) % 65536

/-- The seconds of the day that are sent: those of the time modulo 2^32. -/
def ofDay (t : Nat) : Nat := t % 2 ^ 32 % 86400

/-- The time a day from 1970 on and some seconds of it stand for. -/
def shown (t : Nat) : Nat := (day t - unixEpochMjd) * 86400 + ofDay t

/-- The first second that has no day number. -/
def firstLate : Nat := 2155593600

example : firstLate = (mjd 2038 4 23 - unixEpochMjd) * 86400 := by decide
example : mjd 2038 4 22 = 65535 := by decide
/-- A time in range stands for itself. -/
example : shown 1700000000 = 1700000000 := by decide
/-- The second after the last is sent as the first second of day 0, 17 November 1858. -/
example : day firstLate = 0 ∧ ofDay firstLate = 0 := by decide
/-- 1 January 2300 is sent as a day of 2120 (which is sent as a day of 1941). -/
example : day ((mjd 2300 1 1 - unixEpochMjd) * 86400) = mjd 2300 1 1 - 2 * 65536 := by decide

end Spec.Calendar
