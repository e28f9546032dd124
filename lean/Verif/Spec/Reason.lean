import Verif.Spec.Json

/-! # The reasons of EGTS+ records, as published (`docs/egts_sr_egtsplus_data.proto:6-47`) -/

namespace Egts

def publishedReasons : List (String × Nat) :=
  [("DEVICE_RESET", 1), ("PROFILE_CHANGE", 2), ("IGNITION_ON", 3), ("IGNITION_OFF", 4),
   ("TRIP_BEGIN", 5), ("TRIP_END", 6), ("STOP", 7), ("MOVE", 8),
   ("TOWING_BEGIN", 9), ("TOWING_END", 10), ("TIMER_MOVE", 11), ("TIMER_STOP", 12),
   ("ANGLE", 13), ("DISTANCE", 14), ("SOS_BUTTON", 15), ("SERVICE_BUTTON", 16),
   ("TAMPER", 17), ("ANTENNA_SWITCH", 18), ("GSM_LOST", 19), ("GSM_RECONNECT", 20),
   ("GNSS_LOST", 21), ("GNSS_REAQUISITION", 22), ("JAMMER_GSM", 23), ("JAMMER_GNSS", 24),
   ("OVER_SPEED", 25), ("OVER_RPM", 26), ("OVER_TEMPERATURE", 27), ("DANGEROUS_DRIVING", 28),
   ("ACCIDENT", 29), ("OVERTHROW", 30), ("ON_BATTERY", 31), ("BATTERY_DISCHARGE", 32),
   ("RADIO_TAG_REG", 33), ("RADIO_TAG_UNREG", 34), ("MOVE_WITHOUT_RADIO_TAG", 35), ("ECU_ERROR_CODE", 36),
   ("EXTERNAL_REQUEST", 37), ("DEVICE_TEST", 38), ("OTHER_REASON", 99)]

/-- The published name of a reason. -/
def PublishedAs (n : Nat) (name : Bytes) : Prop := ∃ p ∈ publishedReasons, p.2 = n ∧ p.1.toUTF8.toList = name

open Json in
/-- The text is the number in decimal, without needless zeros. -/
def IsDecimal (i : Int) (t : Bytes) : Prop :=
  ∃ ds, t = (if i < 0 then 45 :: ds else ds) ∧ ds ≠ [] ∧ (∀ c ∈ ds, isDigit c = true) ∧ (ds.head? = some 48 → ds.length = 1) ∧
    digitsVal ds = i.natAbs

/-- The text in quotation marks. -/
def quoted (t : Bytes) : Bytes := 34 :: (t ++ [34])

end Egts
