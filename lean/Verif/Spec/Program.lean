import Verif.Spec.Cli
import Verif.Spec.Main
import Verif.Spec.EndToEnd
import Verif.Spec.Json
import Verif.Model.Program

/-! # Specification vocabulary for the whole receiver -/

namespace Egts

/-- What happens on connections in a history of the process. -/
def onConns (evs : List ProgEvent) : List Event := evs.filterMap fun | .conn ev => some ev | _ => none

/-- The connections that are accepted in a history, in order. -/
def acceptedOf (evs : List ProgEvent) : List Nat := evs.filterMap fun | .conn (.accept k) => some k | _ => none

/-- A content of the configuration file that the receiver can use: nothing, or a mapping with values of the right kinds. -/
def UsableFile (doc : Yaml) : Prop := doc.IsNothing ∨ ∃ ms, doc = .map ms ∧ ∀ x ∈ ms, WellTyped x.1 x.2

/-- The command line names this configuration file. -/
def NamesFile (argv : List Bytes) (path : Bytes) : Prop :=
  path ≠ [] ∧ ∃ opts, CommandLine argv opts ∧ (∀ x ∈ opts, x.1 = go!"c") ∧ lastValue opts (go!"c") = some path

/-- `cfg` are the storages of a section `storage`, each once, in some order. -/
def StoragesOf (ss : List (Bytes × Yaml)) (cfg : List (Bytes × Params)) : Prop :=
  (cfg.map (·.1)).Nodup ∧ ∀ name, (lastOf ss name = none → ∀ p, (name, p) ∉ cfg) ∧ ∀ u, lastOf ss name = some u → ∃ p, (name, p) ∈ cfg ∧ u.IsParams p

/-- The command line names a configuration file with this section `storage`. All the storages in it are supported and have the settings
that they need. -/
def Configured (argv : List Bytes) (fs : Bytes → Option Yaml) (ss : List (Bytes × Yaml)) : Prop :=
  ss ≠ [] ∧ (∃ path ms, NamesFile argv path ∧ fs path = some (.map ms) ∧ ms.filter (fun x => x.1 = go!"storage") = [(go!"storage", .map ss)]) ∧
  ∀ name u, lastOf ss name = some u → name ∈ storageNames ∧ ∀ p, u.IsParams p → ∃ c, p = some c ∧ Usable name c

/-- The command line names a configuration file without storages, and with a log level that prints. -/
def ConfiguredLog (argv : List Bytes) (fs : Bytes → Option Yaml) : Prop :=
  ∃ path ms, NamesFile argv path ∧ fs path = some (.map ms) ∧
    (ms.filter (fun x => x.1 = go!"storage") = [] ∨ ∃ v, v.IsNothing ∧ ms.filter (fun x => x.1 = go!"storage") = [(go!"storage", v)]) ∧
    ∀ v l, lastOf ms (go!"log_level") = some v → v.IsText l → Prints l

/-- What a device has sent, its packet number `i` being handled at `now i`, has arrived: the calls made by the receiver deliver the records
due, in order, to each of the storages of the section `ss`, as JSON that reads back as just these records; and the answers have been
written. -/
def Arrived (env : Env) (now : Nat → Int) (sent : List (Package × List ServiceDataRecord)) (ss : List (Bytes × Yaml)) (made : List Call)
    (written : List Bytes) : Prop :=
  ∃ cfg got answers, StoragesOf ss cfg ∧ List.Forall₂ NavRecord.Near (dueRecords now sent) got ∧ (∀ r ∈ got, Json.readNav r.toBytes = some r) ∧
    (got.flatMap (dues cfg)).Sublist (made.map Call.due) ∧ List.Forall₂ (Answers env) sent answers ∧ written = answers.flatten

/-- What a device has sent has been printed: the calls made are entries in the log, and among them are, in order, ones that read back as the
records due; and the answers have been written. -/
def Printed (env : Env) (now : Nat → Int) (sent : List (Package × List ServiceDataRecord)) (made : List Call) (written : List Bytes) : Prop :=
  ∃ (entries : List Bytes) (got : List NavRecord) (answers : List (List Bytes)), made = entries.map .logPacket ∧ List.Forall₂ NavRecord.Near (dueRecords now sent) got ∧
    (got.map some).Sublist (entries.map Json.readNav) ∧ List.Forall₂ (Answers env) sent answers ∧ written = answers.flatten

end Egts
