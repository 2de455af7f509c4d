import Verif.Model.QueryUsno

/-!
# Model of test/query_usno.py, continued: the answer of the server, the CSV file, the main program

Not modelled here: the connection itself, what is printed, and the statistics of the main program (QueryUsnoGather.lean; for
a log without entries `stats.tmin` raises and no CSV file is written).
-/

namespace Pysolar.QueryUsno

open Verif Pysolar.Solar

/-- `[x for x in result.split(b' ') if x not in b' ']` (test/query_usno.py:76): `x in b' '` holds of the empty string and of
a single space. -/
def tokensOf (result : Txt) : List Txt := (splitSpace result).filter fun x => !(x == [] || x == [' '])

/-- test/query_usno.py:71-87: what `RequestEphemerisData` makes of the lines of the answer. -/
def decodeResponse (B : Backend) (F : FloatText B.α) (datum : Ephemeris B) (lines : List Txt) : Py (Ephemeris B) := do
  let result ← pyIndex lines 21
  let tokens := tokensOf result
  let usno_alt := (← F.parse (← pyIndex tokens 4)) + (← F.parse (← pyIndex tokens 5)) /. 60.0
    + (← F.parse (← pyIndex tokens 6)) /. 3600.0
  let usno_az := (← F.parse (← pyIndex tokens 7)) + (← F.parse (← pyIndex tokens 8)) /. 60.0
    + (← F.parse (← pyIndex tokens 9)) /. 3600.0
  return ⟨datum.timestamp, datum.latitude, datum.longitude, datum.elevation, usno_az, usno_alt⟩

/-- test/query_usno.py:176. -/
def csvHeader : Txt := "timestamp,latitude,longitude,elevation,alt1,alt2,alt_error,az1,az2,az_error".toList

/-- test/query_usno.py:178: `'%s,%s,%s,%s,%s,%s,%s,%s,%s,%s\n' % (...)`. -/
def csvLine (B : Backend) (F : FloatText B.α) (c : EphemerisComparison B) : Txt :=
  strDateTime c.timestamp ++ ',' :: (c.latitude ++ ',' :: (c.longitude ++ ',' :: (F.str c.elevation ++ ',' ::
    (F.str c.alt1 ++ ',' :: (F.str c.alt2 ++ ',' :: (F.str c.alt_error ++ ',' :: (F.str c.az1 ++ ',' :: (F.str c.az2 ++ ',' ::
      (F.str c.az_error ++ ['\n'])))))))))

/-- test/query_usno.py:174-179 `WriteComparisonsToCSV`: the text of the file. -/
def WriteComparisonsToCSV (B : Backend) (F : FloatText B.α) (comps : List (EphemerisComparison B)) : Txt :=
  csvHeader ++ '\n' :: comps.flatMap (csvLine B F)

/-- test/query_usno.py:182-217: the main program called with the name of a log; the text of `pysolar_v_usno.csv`. -/
def main (B : Backend) (F : FloatText B.α) (log : List Txt) : Py Txt := do
  let ephemerides ← ReadEphemeridesLog B F log
  let comps ← ephemerides.mapM (ComparePysolarToUSNO B F)
  return WriteComparisonsToCSV B F comps

end Pysolar.QueryUsno
