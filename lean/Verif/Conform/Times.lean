import Verif.Model.Doubles
/-
What /repo/tests/test_w3c_datetime.py expects of w3c_datetime.py, checked of the model: these are tests of the model, not
proofs of properties.  Numbers with a fraction are the doubles nearest to them (`fl`).
-/

namespace Resync
open Py


/-! test01_datetime_to_str -/

example : datetimeToStrD (0) false = some "1970-01-01T00:00:00Z".toList := by decide +kernel
example : datetimeToStrD (fl (1 / 1000000)) false = some "1970-01-01T00:00:00.000001Z".toList := by decide +kernel
example : datetimeToStrD (fl (1 / 10)) false = some "1970-01-01T00:00:00.100000Z".toList := by decide +kernel
example : datetimeToStrD (1) false = some "1970-01-01T00:00:01Z".toList := by decide +kernel
example : datetimeToStrD (60) false = some "1970-01-01T00:01:00Z".toList := by decide +kernel
example : datetimeToStrD (3600) false = some "1970-01-01T01:00:00Z".toList := by decide +kernel
example : datetimeToStrD (86400) false = some "1970-01-02T00:00:00Z".toList := by decide +kernel
example : datetimeToStrD (2678400) false = some "1970-02-01T00:00:00Z".toList := by decide +kernel
example : datetimeToStrD (31536000) false = some "1971-01-01T00:00:00Z".toList := by decide +kernel
example : datetimeToStrD (1234567890) false = some "2009-02-13T23:31:30Z".toList := by decide +kernel
example : datetimeToStrD (fl (199999 / 1000000)) false = some "1970-01-01T00:00:00.199999Z".toList := by decide +kernel
example : datetimeToStrD (fl (1999991 / 10000000)) false = some "1970-01-01T00:00:00.199999Z".toList := by decide +kernel
example : datetimeToStrD (fl (1999999 / 10000000)) false = some "1970-01-01T00:00:00.200000Z".toList := by decide +kernel
example : datetimeToStrD (fl (200000 / 1000000)) false = some "1970-01-01T00:00:00.200000Z".toList := by decide +kernel
example : datetimeToStrD (fl (2000001 / 10000000)) false = some "1970-01-01T00:00:00.200000Z".toList := by decide +kernel
example : datetimeToStrD (fl (2000009 / 10000000)) false = some "1970-01-01T00:00:00.200001Z".toList := by decide +kernel
example : datetimeToStrD (fl (200001 / 1000000)) false = some "1970-01-01T00:00:00.200001Z".toList := by decide +kernel
example : datetimeToStrD (100) true = some "1970-01-01T00:01:40Z".toList := by decide +kernel
example : datetimeToStrD (fl (2000009 / 10000000)) true = some "1970-01-01T00:00:00Z".toList := by decide +kernel
example : datetimeToStrD (fl (200001 / 1000000)) true = some "1970-01-01T00:00:00Z".toList := by decide +kernel

/-! test02_str_to_datetime -/

example : strToDatetimeD "1970-01-01T00:00:00Z".toList = some (0) := by decide +kernel
example : strToDatetimeD "1970-01-01T00:00:00.000Z".toList = some (0) := by decide +kernel
example : strToDatetimeD "1970-01-01T00:00:00+00:00".toList = some (0) := by decide +kernel
example : strToDatetimeD "1970-01-01T00:00:00-00:00".toList = some (0) := by decide +kernel
example : strToDatetimeD "1970-01-01T00:00:00.000001Z".toList = some (fl (1 / 1000000)) := by decide +kernel
example : strToDatetimeD "1970-01-01T00:00:00.1Z".toList = some (fl (1 / 10)) := by decide +kernel
example : strToDatetimeD "1970-01-01T00:00:00.100000Z".toList = some (fl (1 / 10)) := by decide +kernel
example : strToDatetimeD "2009-02-13T23:31:30Z".toList = some (1234567890) := by decide +kernel
/-! test03_same -/

example : strToDatetimeD "2012".toList = strToDatetimeD "2012-01-01T00:00:00Z".toList := by decide +kernel
example : strToDatetime "2012".toList = strToDatetime "2012-01-01T00:00:00Z".toList := by decide +kernel
example : strToDatetimeD "2012-01".toList = strToDatetimeD "2012-01-01T00:00:00Z".toList := by decide +kernel
example : strToDatetime "2012-01".toList = strToDatetime "2012-01-01T00:00:00Z".toList := by decide +kernel
example : strToDatetimeD "2012-01-01".toList = strToDatetimeD "2012-01-01T00:00:00Z".toList := by decide +kernel
example : strToDatetime "2012-01-01".toList = strToDatetime "2012-01-01T00:00:00Z".toList := by decide +kernel
example : strToDatetimeD "2012-01-01T00:00Z".toList = strToDatetimeD "2012-01-01T00:00:00Z".toList := by decide +kernel
example : strToDatetime "2012-01-01T00:00Z".toList = strToDatetime "2012-01-01T00:00:00Z".toList := by decide +kernel
example : strToDatetimeD "2012-01-01T00:00:00Z".toList = strToDatetimeD "2012-01-01T00:00:00Z".toList := by decide +kernel
example : strToDatetime "2012-01-01T00:00:00Z".toList = strToDatetime "2012-01-01T00:00:00Z".toList := by decide +kernel
example : strToDatetimeD "2012-01-01T00:00:00.000000Z".toList = strToDatetimeD "2012-01-01T00:00:00Z".toList := by decide +kernel
example : strToDatetime "2012-01-01T00:00:00.000000Z".toList = strToDatetime "2012-01-01T00:00:00Z".toList := by decide +kernel
example : strToDatetimeD "2012-01-01T00:00:00.000000000000Z".toList = strToDatetimeD "2012-01-01T00:00:00Z".toList := by decide +kernel
example : strToDatetime "2012-01-01T00:00:00.000000000000Z".toList = strToDatetime "2012-01-01T00:00:00Z".toList := by decide +kernel
example : strToDatetimeD "2012-01-01T00:00:00.000000000001Z".toList = strToDatetimeD "2012-01-01T00:00:00Z".toList := by decide +kernel
example : strToDatetimeD "2012-01-01T00:00:00.00+00:00".toList = strToDatetimeD "2012-01-01T00:00:00Z".toList := by decide +kernel
example : strToDatetime "2012-01-01T00:00:00.00+00:00".toList = strToDatetime "2012-01-01T00:00:00Z".toList := by decide +kernel
example : strToDatetimeD "2012-01-01T00:00:00.00-00:00".toList = strToDatetimeD "2012-01-01T00:00:00Z".toList := by decide +kernel
example : strToDatetime "2012-01-01T00:00:00.00-00:00".toList = strToDatetime "2012-01-01T00:00:00Z".toList := by decide +kernel
example : strToDatetimeD "2012-01-01T02:00:00.00-02:00".toList = strToDatetimeD "2012-01-01T00:00:00Z".toList := by decide +kernel
example : strToDatetime "2012-01-01T02:00:00.00-02:00".toList = strToDatetime "2012-01-01T00:00:00Z".toList := by decide +kernel
example : strToDatetimeD "2011-12-31T23:00:00.00+01:00".toList = strToDatetimeD "2012-01-01T00:00:00Z".toList := by decide +kernel
example : strToDatetime "2011-12-31T23:00:00.00+01:00".toList = strToDatetime "2012-01-01T00:00:00Z".toList := by decide +kernel

/-! test04_bad_str -/

example : strToDatetimeD "bad_lastmod".toList = none := by decide +kernel
example : strToDatetime "bad_lastmod".toList = none := by decide +kernel
example : strToDatetimeD "".toList = none := by decide +kernel
example : strToDatetime "".toList = none := by decide +kernel
example : strToDatetimeD "2012-13-01".toList = none := by decide +kernel
example : strToDatetime "2012-13-01".toList = none := by decide +kernel
example : strToDatetimeD "2012-12-32".toList = none := by decide +kernel
example : strToDatetime "2012-12-32".toList = none := by decide +kernel
example : strToDatetimeD "2012-11-01T10:10:60".toList = none := by decide +kernel
example : strToDatetime "2012-11-01T10:10:60".toList = none := by decide +kernel
example : strToDatetimeD "2012-11-01T10:10:59.9x".toList = none := by decide +kernel
example : strToDatetime "2012-11-01T10:10:59.9x".toList = none := by decide +kernel
example : strToDatetimeD "2012-11-01T01:01:01".toList = none := by decide +kernel
example : strToDatetime "2012-11-01T01:01:01".toList = none := by decide +kernel
example : strToDatetimeD "2012-11-01 01:01:01Z".toList = none := by decide +kernel
example : strToDatetime "2012-11-01 01:01:01Z".toList = none := by decide +kernel
example : strToDatetimeD "2012-11-01T01:01:01+0000".toList = none := by decide +kernel
example : strToDatetime "2012-11-01T01:01:01+0000".toList = none := by decide +kernel
example : strToDatetimeD "2012-11-01T01:01:01-1000".toList = none := by decide +kernel
example : strToDatetime "2012-11-01T01:01:01-1000".toList = none := by decide +kernel
example : strToDatetimeD "2012-00-01T01:01:01Z".toList = none := by decide +kernel
example : strToDatetime "2012-00-01T01:01:01Z".toList = none := by decide +kernel
example : strToDatetimeD "2012-13-01T01:01:01Z".toList = none := by decide +kernel
example : strToDatetime "2012-13-01T01:01:01Z".toList = none := by decide +kernel
example : strToDatetimeD "2012-11-00T01:01:01Z".toList = none := by decide +kernel
example : strToDatetime "2012-11-00T01:01:01Z".toList = none := by decide +kernel
example : strToDatetimeD "2012-11-32T01:01:01Z".toList = none := by decide +kernel
example : strToDatetime "2012-11-32T01:01:01Z".toList = none := by decide +kernel
example : strToDatetimeD "2012-13-01T24:01:01Z".toList = none := by decide +kernel
example : strToDatetime "2012-13-01T24:01:01Z".toList = none := by decide +kernel
example : strToDatetimeD "2012-13-01T00:60:01Z".toList = none := by decide +kernel
example : strToDatetime "2012-13-01T00:60:01Z".toList = none := by decide +kernel
example : strToDatetimeD "2012-13-01T00:00:60Z".toList = none := by decide +kernel
example : strToDatetime "2012-13-01T00:00:60Z".toList = none := by decide +kernel
example : strToDatetimeD "2012-11-01T01:01:01+99:00".toList = none := by decide +kernel
example : strToDatetime "2012-11-01T01:01:01+99:00".toList = none := by decide +kernel
example : strToDatetimeD "2012-11-01T01:01:01-25:00".toList = none := by decide +kernel
example : strToDatetime "2012-11-01T01:01:01-25:00".toList = none := by decide +kernel

/-! test05_roundtrips -/

example : (strToDatetimeD "2012-03-14T00:00:00+00:00".toList).bind (fun t => datetimeToStrD t false) = some "2012-03-14T00:00:00Z".toList := by decide +kernel
example : (strToDatetime "2012-03-14T00:00:00+00:00".toList).bind (fun t => datetimeToStr t false) = some "2012-03-14T00:00:00Z".toList := by decide +kernel
example : (strToDatetimeD "2012-03-14T00:00:00-00:00".toList).bind (fun t => datetimeToStrD t false) = some "2012-03-14T00:00:00Z".toList := by decide +kernel
example : (strToDatetime "2012-03-14T00:00:00-00:00".toList).bind (fun t => datetimeToStr t false) = some "2012-03-14T00:00:00Z".toList := by decide +kernel
example : (strToDatetimeD "2012-03-14T11:00:00-11:00".toList).bind (fun t => datetimeToStrD t false) = some "2012-03-14T00:00:00Z".toList := by decide +kernel
example : (strToDatetime "2012-03-14T11:00:00-11:00".toList).bind (fun t => datetimeToStr t false) = some "2012-03-14T00:00:00Z".toList := by decide +kernel
example : (strToDatetimeD "2012-03-14T18:37:36Z".toList).bind (fun t => datetimeToStrD t false) = some "2012-03-14T18:37:36Z".toList := by decide +kernel
example : (strToDatetime "2012-03-14T18:37:36Z".toList).bind (fun t => datetimeToStr t false) = some "2012-03-14T18:37:36Z".toList := by decide +kernel
example : (strToDatetimeD "2012-03-14T18:37:36+00:10".toList).bind (fun t => datetimeToStrD t false) = some "2012-03-14T18:47:36Z".toList := by decide +kernel
example : (strToDatetime "2012-03-14T18:37:36+00:10".toList).bind (fun t => datetimeToStr t false) = some "2012-03-14T18:47:36Z".toList := by decide +kernel
example : (strToDatetimeD "2012-03-14T18:37:36-01:01".toList).bind (fun t => datetimeToStrD t false) = some "2012-03-14T17:36:36Z".toList := by decide +kernel
example : (strToDatetime "2012-03-14T18:37:36-01:01".toList).bind (fun t => datetimeToStr t false) = some "2012-03-14T17:36:36Z".toList := by decide +kernel

end Resync
