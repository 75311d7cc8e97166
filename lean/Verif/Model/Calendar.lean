import Verif.Model.Output
import Verif.Model.Forcing

/-!
Model of the calendar arithmetic behind file names: the hourly data files of rasters and
unstructured datasets (`/repo/src/forcing/rdyforcing_dataset.c`) and time-stamped output files
(`/repo/src/rdyadvance.c:82-104`). `mktime` and `localtime_r` are functions of the C library; what is
written down here is their contract (proleptic Gregorian calendar, no leap seconds).
-/

namespace RDy

/-- A broken-down time (`struct tm`) as used at `/repo/src/forcing/rdyforcing.c:356-372` and
`/repo/src/rdyadvance.c:102`. Fields hold the calendar year and the month counted from 1, that is
`tm_year + 1900` and `tm_mon + 1`. They may be outside of their ranges until `mktime` is called. -/
structure Tm where
  year : ℤ
  mon : ℤ
  day : ℤ
  hour : ℤ
  min : ℤ
  sec : ℤ
  deriving DecidableEq, Repr

/-- Gregorian leap years (contract of `mktime`, called at
`/repo/src/forcing/rdyforcing_dataset.c:111`). -/
def leapYear (y : ℤ) : Bool := y % 4 == 0 && (y % 100 != 0 || y % 400 == 0)

/-- Days from 1 January of year 1 to 1 January of year `y` (contract of `mktime`,
`/repo/src/forcing/rdyforcing_dataset.c:111`). -/
def daysToYear (y : ℤ) : ℤ := 365 * (y - 1) + (y - 1) / 4 - (y - 1) / 100 + (y - 1) / 400

/-- 1 in leap years and 0 otherwise (contract of `mktime`,
`/repo/src/forcing/rdyforcing_dataset.c:111`). -/
def leapDay (y : ℤ) : ℤ := if leapYear y then 1 else 0

/-- Days from 1 January to the first day of month `m` of year `y` (contract of `mktime`,
`/repo/src/forcing/rdyforcing_dataset.c:111`). -/
def daysToMonth (y m : ℤ) : ℤ :=
  if m ≤ 1 then 0
  else if m ≤ 2 then 31
  else if m ≤ 3 then 59 + leapDay y
  else if m ≤ 4 then 90 + leapDay y
  else if m ≤ 5 then 120 + leapDay y
  else if m ≤ 6 then 151 + leapDay y
  else if m ≤ 7 then 181 + leapDay y
  else if m ≤ 8 then 212 + leapDay y
  else if m ≤ 9 then 243 + leapDay y
  else if m ≤ 10 then 273 + leapDay y
  else if m ≤ 11 then 304 + leapDay y
  else 334 + leapDay y

/-- The time value of a broken-down time, in seconds since 1 January of year 1 (contract of `mktime`,
`/repo/src/forcing/rdyforcing_dataset.c:111`, `/repo/src/rdyadvance.c:104`): months beyond December
count as months of later years; days, hours, minutes and seconds may be arbitrary. Simplification:
C counts from 1970, and the difference does not matter; `time_t` and `int` do not overflow. -/
def tmSeconds (t : Tm) : ℤ :=
  (daysToYear (t.year + (t.mon - 1) / 12) +
    daysToMonth (t.year + (t.mon - 1) / 12) ((t.mon - 1) % 12 + 1) + (t.day - 1)) * 86400 +
    t.hour * 3600 + t.min * 60 + t.sec

/-- The year that contains the day number `d` (contract of `localtime_r`, `/repo/src/rdyadvance.c:85`):
cycles of 400, 100, 4 and 1 years. -/
def yearOfDay (d : ℤ) : ℤ :=
  400 * (d / 146097) + 100 * min (d % 146097 / 36524) 3 +
    4 * ((d % 146097 - 36524 * min (d % 146097 / 36524) 3) / 1461) +
    min ((d % 146097 - 36524 * min (d % 146097 / 36524) 3) % 1461 / 365) 3 + 1

/-- The month that contains day `k` (counted from 0) of year `y` (contract of `localtime_r`,
`/repo/src/rdyadvance.c:85`). -/
def monthOfDay (y k : ℤ) : ℤ :=
  if k < 31 then 1
  else if k < 59 + leapDay y then 2
  else if k < 90 + leapDay y then 3
  else if k < 120 + leapDay y then 4
  else if k < 151 + leapDay y then 5
  else if k < 181 + leapDay y then 6
  else if k < 212 + leapDay y then 7
  else if k < 243 + leapDay y then 8
  else if k < 273 + leapDay y then 9
  else if k < 304 + leapDay y then 10
  else if k < 334 + leapDay y then 11
  else 12

/-- The broken-down time of a time value (contract of `localtime_r`, `/repo/src/rdyadvance.c:85`, in a
zone without summer time). -/
def tmOfSeconds (n : ℤ) : Tm where
  year := yearOfDay (n / 86400)
  mon := monthOfDay (yearOfDay (n / 86400)) (n / 86400 - daysToYear (yearOfDay (n / 86400)))
  day := n / 86400 - daysToYear (yearOfDay (n / 86400)) -
    daysToMonth (yearOfDay (n / 86400))
      (monthOfDay (yearOfDay (n / 86400)) (n / 86400 - daysToYear (yearOfDay (n / 86400)))) + 1
  hour := n % 86400 / 3600
  min := n % 3600 / 60
  sec := n % 60

/-- `mktime(&t)` as it changes its argument (called at `/repo/src/forcing/rdyforcing_dataset.c:111`,
`:173`, `:262`), in a zone without summer time. -/
def mktime (t : Tm) : Tm := tmOfSeconds (tmSeconds t)

/-- `%02d` and the like (`/repo/src/forcing/rdyforcing_dataset.c:112`) for a number that is not
negative; negative numbers (which do not occur after `mktime`, except years before 1 BC) are not
modelled. -/
def pad (w : ℕ) (n : ℤ) : Str := (padded w n.toNat).map digitChar

/-- `%4d` (`/repo/src/forcing/rdyforcing_dataset.c:112`): padded with blanks. -/
def padBlank (w : ℕ) (n : ℤ) : Str :=
  List.replicate (w - (decimal n.toNat).length) ' ' ++ (decimal n.toNat).map digitChar

/-- The name printed at `/repo/src/forcing/rdyforcing_dataset.c:112-113`; `idType` is `PETSC_ID_TYPE`.
Truncation at `PETSC_MAX_PATH_LEN` is not modelled. -/
def datasetName (dir idType : Str) (t : Tm) : Str :=
  dir ++ ['/'] ++ padBlank 4 t.year ++ ['-'] ++ pad 2 t.mon ++ ['-'] ++ pad 2 t.day ++ [':'] ++
    pad 2 t.hour ++ ['-'] ++ pad 2 t.min ++ ['.'] ++ idType ++ ".bin".toList

/-- `RDyForcingDetermineDatasetFilename` (`/repo/src/forcing/rdyforcing_dataset.c:108-116`): the
normalised date and the name. -/
def datasetFilename (dir idType : Str) (t : Tm) : Tm × Str :=
  (mktime t, datasetName dir idType (mktime t))

/-- State of the dated files of a dataset: `current_date`, `ndata_file` and the name of the open file
(`RDyRasterDataset` and `RDyUnstructuredDataset`, `/repo/include/private/rdyforcingimpl.h:33-87`). -/
structure DatedFile where
  date : Tm
  count : ℕ
  name : Str

/-- Opening the first file (`/repo/src/forcing/rdyforcing_dataset.c:123-127`, `:204-207`). -/
def openFirst (dir idType : Str) (start : Tm) : DatedFile :=
  ⟨(datasetFilename dir idType start).1, 1, (datasetFilename dir idType start).2⟩

/-- Opening the next file (`/repo/src/forcing/rdyforcing_dataset.c:171-175`, `:193` and `:260-264`,
`:273`): the hour is increased, the date normalised, and once more when the name is determined. -/
def openNext (dir idType : Str) (s : DatedFile) : DatedFile :=
  ⟨(datasetFilename dir idType (mktime { s.date with hour := s.date.hour + 1 })).1, s.count + 1,
    (datasetFilename dir idType (mktime { s.date with hour := s.date.hour + 1 })).2⟩

/-- One call of `RDyForcingSetRasterData` or `RDyForcingSetUnstructuredData`, as far as files are
concerned (`/repo/src/forcing/rdyforcing_dataset.c:298-300`, `:353-355`). -/
noncomputable def stepFile (dir idType : Str) (s : DatedFile) (t : ℝ) : DatedFile :=
  if t / 3600 ≥ (s.count : ℝ) * 1 then openNext dir idType s else s

/-- The names of the files used by a sequence of calls at the given times
(`/repo/src/forcing/rdyforcing_dataset.c:295-314`, `:350-373`). -/
noncomputable def nameHistory (dir idType : Str) : DatedFile → List ℝ → List Str
  | _, [] => []
  | s, t :: ts => (stepFile dir idType s t).name :: nameHistory dir idType (stepFile dir idType s t) ts

/-! ### Summer time -/

/-- `mktime` in a zone where summer time (one hour) is in force at the times described by `dst`
(standard time value), for a broken-down time whose `tm_isdst` is `flag`, which is the case of all
calls but the first one at `/repo/src/forcing/rdyforcing_dataset.c:111`, `:173`, `:262`: the fields
are read as summer time if the flag is set, and written as summer time if it is in force. Result: the
fields and the new flag. -/
def mktimeDst (dst : ℤ → Bool) (t : Tm) (flag : Bool) : Tm × Bool :=
  (tmOfSeconds (tmSeconds t - (if flag then 3600 else 0) +
      (if dst (tmSeconds t - (if flag then 3600 else 0)) then 3600 else 0)),
    dst (tmSeconds t - (if flag then 3600 else 0)))

/-- The dates of the successive files with summer time, from a normalised date and its flag
(`/repo/src/forcing/rdyforcing_dataset.c:171-175`, `:260-264`). -/
def nextDateDst (dst : ℤ → Bool) (s : Tm × Bool) : Tm × Bool :=
  mktimeDst dst
    (mktimeDst dst { s.1 with hour := s.1.hour + 1 } s.2).1
    (mktimeDst dst { s.1 with hour := s.1.hour + 1 } s.2).2

/-! ### Time-stamped output -/

/-- The date of the configuration, as stored by `sscanf` at `/repo/src/yaml_input.c:939-941`: the
calendar year is put in `tm_year` (years since 1900) and the month (1 to 12) in `tm_mon` (0 to 11). -/
def configDate (y m d h mi s : ℤ) : Tm := ⟨y + 1900, m + 1, d, h, mi, s⟩

/-- `/repo/src/rdyadvance.c:102-104` and `:82-89`: the name of a time-stamped file; `sec` is
`(time_t)time`. The year and the month are printed as they are stored in the `tm` structure. -/
def stampedName (dir pre suffix : Str) (date : Tm) (sec : ℤ) : Str :=
  let t := tmOfSeconds (tmSeconds { date with sec := date.sec + sec })
  dir ++ ['/'] ++ pre ++ ['.'] ++ pad 4 (t.year - 1900) ++ ['-'] ++ pad 2 (t.mon - 1) ++ ['-'] ++
    pad 2 t.day ++ ['.'] ++ pad 2 t.hour ++ ['.'] ++ pad 2 t.min ++ ['.'] ++ pad 2 t.sec ++ ['.'] ++
    suffix

end RDy
