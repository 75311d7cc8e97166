import Verif.Model.Forcing

/-!
Model of the selection of datasets by command line options (`/repo/src/forcing/rdyforcing.c:296-592`).

Contract of PETSc's options functions: `PetscOptionsGetString` and its siblings report whether an
option is given; `PetscOptionsGetIntArray` and `PetscOptionsGetStringArray` return at most as many
entries as the caller has room for and ignore the others.
-/

namespace RDy

/-- The options for one dataset: rainfall (`/repo/src/forcing/rdyforcing.c:308-446`) or boundary data
(`:492-569`; `constant`, `rasterDir` and `rasterDate` do not exist there). A field is `none` if the
option is not given. Options for spatial maps are in `mapActions`. -/
structure ForcingOpts where
  /-- `-constant_rain_rate` -/
  constant : Option ℝ
  /-- `-homogeneous_rain_file`, `-homogeneous_bc_file` -/
  homFile : Option Str
  /-- `-raster_rain_dir` -/
  rasterDir : Option Str
  /-- `-raster_rain_start_date` -/
  rasterDate : Option (List ℤ)
  /-- `-unstructured_rain_dir`, `-unstructured_bc_dir` -/
  unsDir : Option Str
  /-- `-unstructured_rain_start_date`, `-unstructured_bc_start_date` -/
  unsDate : Option (List ℤ)
  /-- `-unstructured_rain_mesh_file`, `-unstructured_bc_mesh_file` -/
  unsMesh : Option Str
  /-- `-homogeneous_rain_files`, `-homogeneous_bc_files` -/
  files : Option (List Str)
  /-- `-homogeneous_rain_region_ids`, `-homogeneous_bc_region_ids` -/
  ids : Option (List ℤ)

/-- The dataset selected (`type` and the data that go with it, `/repo/src/forcing/rdyforcing.c:299`,
`:318`, `:327`, `:354-372`, `:408-426`, `:451-462`). -/
inductive DataSel
  | unset
  | constant (rate : ℝ)
  | homogeneous (file : Str)
  | raster (dir : Str) (date : List ℤ)
  | unstructured (dir mesh : Str) (date : List ℤ)
  | multi (data : List (Str × ℤ))

/-- `/repo/src/forcing/rdyforcing.c:315-319`. -/
def constantStage (o : ForcingOpts) : Res (Option DataSel) := .ok (o.constant.map .constant)

/-- `/repo/src/forcing/rdyforcing.c:323-328`, `:496-501`. -/
def homStage (o : ForcingOpts) : Res (Option DataSel) := .ok (o.homFile.map .homogeneous)

/-- `/repo/src/forcing/rdyforcing.c:333-374`: everything depends on the start date being given. -/
def rasterStage (o : ForcingOpts) : Res (Option DataSel) :=
  match o.rasterDate with
  | none => .ok none
  | some date =>
    if (date.take 5).length ≠ 5 then .error
    else
      match o.rasterDir with
      | none => .error
      | some dir => .ok (some (.raster dir (date.take 5)))

/-- `/repo/src/forcing/rdyforcing.c:380-428`, `:506-549`. -/
def unsStage (o : ForcingOpts) : Res (Option DataSel) :=
  match o.unsDate with
  | none => .ok none
  | some date =>
    if (date.take 5).length ≠ 5 then .error
    else
      match o.unsDir with
      | none => .error
      | some dir =>
        match o.unsMesh with
        | none => .error
        | some mesh => .ok (some (.unstructured dir mesh (date.take 5)))

/-- `/repo/src/forcing/rdyforcing.c:431-463`, `:552-584`: room for 20 files and IDs. -/
def multiStage (o : ForcingOpts) : Res (Option DataSel) :=
  match o.files, o.ids with
  | none, none => .ok none
  | some fs, some is =>
    if (fs.take 20).length ≠ (is.take 20).length then .error
    else .ok (some (.multi ((fs.take 20).zip (is.take 20))))
  | _, _ => .error

/-- The stages one after the other: `type` is that of the last dataset found and `n` is
`dataset_type_count`; at the end it must be at most 1 (`/repo/src/forcing/rdyforcing.c:311`,
`:466-468`, `:490`, `:587-589`). -/
def runStages : ℕ → DataSel → List (Res (Option DataSel)) → Res DataSel
  | n, s, [] => if n ≤ 1 then .ok s else .error
  | n, s, .ok none :: l => runStages n s l
  | n, _, .ok (some s) :: l => runStages (n + 1) s l
  | _, _, .error :: _ => .error
  | _, _, .ub :: _ => .ub

/-- `RDyForcingParseRainfallDataOptions` (`/repo/src/forcing/rdyforcing.c:296-471`). -/
def parseRain (o : ForcingOpts) : Res DataSel :=
  runStages 0 .unset [constantStage o, homStage o, rasterStage o, unsStage o, multiStage o]

/-- `RDyForcingParseBoundaryDataOptions` (`/repo/src/forcing/rdyforcing.c:478-592`). -/
def parseBoundary (o : ForcingOpts) : Res DataSel :=
  runStages 0 .unset [homStage o, unsStage o, multiStage o]

/-- The map files read and written. `/repo/include/private/rdyforcingimpl.h:33-87`. -/
structure MapActions where
  reads : Option Str
  writes : Option Str

/-- Rainfall (`/repo/src/forcing/rdyforcing.c:338-341`, `:387-390` and `:95-109`, `:268-282`): the names
given by `-…_write_map_file` and `-…_read_map_file` are stored in the same buffer, the latter last. -/
def rainMapActions (write read : Option Str) : MapActions where
  reads := read
  writes := match write with
    | none => none
    | some w => some (read.getD w)

/-- Boundary data: the options are read (`/repo/src/forcing/rdyforcing.c:509-512`) and never used
(`:120-162`). -/
def boundaryMapActions (_write _read : Option Str) : MapActions := ⟨none, none⟩

end RDy
