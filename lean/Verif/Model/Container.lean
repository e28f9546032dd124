import Verif.Model.Cli

/-!
# The container image and the ways of starting it (`Dockerfile`, `README.md:42-82`)

Files are byte strings under absolute paths. Simplifications: there are no links, permissions or relative paths, and a volume is a
directory whose files do not change while the receiver starts.
-/

namespace Egts

/-- The contents of the files, by path. -/
abbrev Files := Bytes → Option Bytes

/-- The option `-v src:dir` of `docker run`, or `volumes` of docker-compose: in place of what the image has below the directory `dir`
there are the files `vol`. -/
def Files.mount (fs : Files) (dir : Bytes) (vol : Files) : Files := fun p =>
  if dir ++ go!"/" <+: p then vol (p.drop (dir.length + 1)) else fs p

/-- Where the image has its configuration (`Dockerfile:14`). -/
def imageConfig : Bytes := go!"/etc/egts-receviver/config.yaml"

/-- The files of the image (`Dockerfile:11-14`): those of busybox, the programs, and `configs/receiver.yaml` with the text `config`. -/
def imageFiles (busybox bin : Files) (config : Bytes) : Files := fun p =>
  if p = imageConfig then some config
  else if go!"/app/" <+: p ∧ (bin (p.drop 5)).isSome then bin (p.drop 5)
  else busybox p

/-- The arguments of the receiver in a container (`Dockerfile:16`). -/
def entrypoint : List Bytes := [go!"-c", imageConfig]

/-- The receiver in a container with these files; `read` is yaml.v2. -/
def container {W E : Type} (read : Bytes → Option Yaml) (lib : Lib W E) (order : List (Bytes × Params) → List (Bytes × Params)) (files : Files)
    (w : W) : CliEnd (Start W E) :=
  receiverCli lib order (fun p => (files p).bind read) entrypoint w

end Egts
