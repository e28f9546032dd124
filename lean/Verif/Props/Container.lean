import Verif.Spec.Container
import Verif.Props.YamlText

/-! # The container image, started as the README says (C101) -/

namespace Egts

variable {W E : Type}

theorem container_eq (read : Bytes → Option Yaml) (lib : Lib W E) (order : List (Bytes × Params) → List (Bytes × Params)) (files : Files) (w : W) :
    container read lib order files w = .main (receiverMain lib order (fun p => (files p).bind read) imageConfig w) := rfl

theorem main_congr (lib : Lib W E) (order : List (Bytes × Params) → List (Bytes × Params)) (fs fs' : Bytes → Option Yaml) (path : Bytes)
    (h : fs path = fs' path) (w : W) : receiverMain lib order fs path w = receiverMain lib order fs' path w := by
  unfold receiverMain
  rw [h]

/-- `docker run egts:latest`: with all servers answering, the receiver runs with the shipped configuration. -/
theorem C101_image (read : Bytes → Option Yaml) (hr : ReadsYaml read) (text : Bytes) (h : HasLines text shippedLines) (busybox bin : Files)
    (lib : Lib W E) (hok : ∀ c w, (lib c w).2 = none) (order : List (Bytes × Params) → List (Bytes × Params)) (hord : ∀ l, (order l).Perm l) (w : W) :
    ∃ w', container read (recorder lib) order (imageFiles busybox bin text) (w, []) =
      .main (.run (go!"127.0.0.1:6000") 0 ((order shippedStorages).map fun x => (connectors (recorder lib)).saver x.1 x.2)
        (w', (order shippedStorages).flatMap fun x => shippedCalls x.1)) := by
  obtain ⟨w', hw⟩ := C98_shipped_runs read hr text h lib hok order hord (imageFiles busybox bin text) imageConfig (by decide) (if_pos rfl) w
  exact ⟨w', by rw [container_eq, hw]⟩

/-- A part of the full statement of C101 (not provable): with `-v ./configs:/etc/egts-receiver` the receiver runs with the configuration in
`./configs`. That directory is not the one that the image reads: whatever files are in `./configs`, the receiver is that of the image. -/
theorem C101_false_custom (read : Bytes → Option Yaml) (lib : Lib W E) (order : List (Bytes × Params) → List (Bytes × Params)) (image configs : Files)
    (w : W) : container read lib order (image.mount (go!"/etc/egts-receiver") configs) w = container read lib order image w := by
  rw [container_eq, container_eq, main_congr lib order _ (fun p => (image p).bind read)]
  have : ¬ (go!"/etc/egts-receiver" ++ go!"/" <+: imageConfig) := by decide
  simp only [Files.mount, if_neg this]

/-- With the volume of the docker-compose example, the configuration is the file `config.yaml` in the volume, and nothing else matters. -/
theorem C101_compose (read : Bytes → Option Yaml) (lib : Lib W E) (order : List (Bytes × Params) → List (Bytes × Params)) (image configs : Files)
    (w : W) : container read lib order (image.mount (go!"/etc/egts-receviver") configs) w =
      .main (receiverMain lib order (fun _ => (configs (go!"config.yaml")).bind read) (go!"config.yaml") w) := by
  rw [container_eq]
  have h1 : go!"/etc/egts-receviver" ++ go!"/" <+: imageConfig := by decide
  have h2 : imageConfig.drop ((go!"/etc/egts-receviver").length + 1) = go!"config.yaml" := by decide
  have h3 : imageConfig ≠ [] ∧ go!"config.yaml" ≠ [] := by decide
  unfold receiverMain
  simp only [Files.mount, if_pos h1, h2, if_neg h3.1, if_neg h3.2]

/-- So with the directory `configs` of the repository, which has no file of that name, the receiver does not run. -/
theorem C101_false_compose (read : Bytes → Option Yaml) (lib : Lib W E) (order : List (Bytes × Params) → List (Bytes × Params)) (image : Files)
    (receiverYaml testYaml : Bytes) (w : W) :
    container read lib order (image.mount (go!"/etc/egts-receviver")
      (directory [(go!"config.test.yaml", testYaml), (go!"receiver.yaml", receiverYaml)])) w = .main .fatal := by
  rw [C101_compose]
  rfl

/-- And the image by itself cannot be reached from outside its container, where it has some address of its own, through a published port or
otherwise. -/
theorem C101_false_published (read : Bytes → Option Yaml) (hr : ReadsYaml read) (text : Bytes) (h : HasLines text shippedLines) (busybox bin : Files)
    (lib : Lib W E) (order : List (Bytes × Params) → List (Bytes × Params)) (ip port : Bytes) (hip : ip ≠ go!"127.0.0.1") (hport : 58 ∉ port)
    (w w' : W) (addr : Bytes) (ttl : Int) (stores : List (Saver W (ConnErr E)))
    (hrun : container read lib order (imageFiles busybox bin text) w = .main (.run addr ttl stores w')) : ¬ ReachedAt ip port addr := by
  rw [container_eq] at hrun
  unfold receiverMain at hrun
  have h0 : (imageFiles busybox bin text imageConfig).bind read = read text := rfl
  simp only [if_neg (by decide : imageConfig ≠ []), h0, C98_shipped_settings read hr text h] at hrun
  injection hrun with hrun
  injection hrun with ha
  rw [← ha]
  rintro (h1 | h1 | h1)
  · have h2 := congrArg (fun l => l.reverse.dropWhile (· ≠ 58)) h1
    have h3 : (ip ++ go!":" ++ port).reverse.dropWhile (· ≠ 58) = 58 :: ip.reverse := by
      rw [List.reverse_append, List.reverse_append, List.dropWhile_append_of_pos (by
        intro c hc
        simp only [List.mem_reverse] at hc
        simp only [ne_eq, decide_eq_true_eq]
        rintro rfl
        exact hport hc)]
      rfl
    simp only [h3] at h2
    have h4 : (Settings.listenAddress { host := go!"127.0.0.1", port := go!"6000", connTTL := 0, logLevel := go!"DEBUG", store := shippedStorages }).reverse.dropWhile
        (· ≠ 58) = 58 :: (go!"127.0.0.1").reverse := by decide
    rw [h4] at h2
    injection h2 with _ h2
    exact hip (List.reverse_injective h2).symm
  · exact absurd (Option.some.inj (congrArg List.head? h1) : (49 : UInt8) = 58) (by decide)
  · exact absurd (Option.some.inj (congrArg List.head? h1) : (49 : UInt8) = 48) (by decide)

/-- What works: a file `config.yaml` in that directory which says on which host and port to listen, `0.0.0.0` for all addresses. Missing: the
examples as they are (`C101_false_custom`, `C101_false_compose`, `C101_false_published`). -/
theorem C101_compose_partial (read : Bytes → Option Yaml) (hr : ReadsYaml read) (lib : Lib W E) (order : List (Bytes × Params) → List (Bytes × Params))
    (image configs : Files) (text : Bytes) (hc : configs (go!"config.yaml") = some text) (w : W) (lines : List Bytes) (ms : List (Bytes × Yaml))
    (hl : HasLines text lines) (hp : ∀ l ∈ lines, Printable l) (hs : Says 0 lines ms) (port : Bytes)
    (hh : lastOf ms (go!"host") = some (.str (go!"0.0.0.0"))) (ho : lastOf ms (go!"port") = some (.str port)) (hw : ∀ x ∈ ms, WellTyped x.1 x.2) :
    ∃ addr ttl stores w', container read lib order (image.mount (go!"/etc/egts-receviver") configs) w = .main (.run addr ttl stores w') ∧
      ∀ ip, ReachedAt ip port addr := by
  obtain ⟨ttl, stores, w', h⟩ := C98_listens read hr lib order (fun _ => configs (go!"config.yaml")) (go!"config.yaml") text (by decide) hc w lines ms hl hp hs
    (go!"0.0.0.0") port hh ho hw
  refine ⟨_, ttl, stores, w', by rw [C101_compose, h], fun ip => .inr (.inr ?_)⟩
  rw [List.append_assoc]
  rfl

/-- A file with two lines in that directory. -/
def wideLines : List Bytes := [go!"host: \"0.0.0.0\"", go!"port: \"6000\""]

def wideDoc : List (Bytes × Yaml) := [(go!"host", .str (go!"0.0.0.0")), (go!"port", .str (go!"6000"))]

theorem wide_says : Says 0 wideLines wideDoc := by
  have h1 : ∃ ts, yamlLines wideLines = some ts ∧ yamlBuild ts = some (atLevel 0 wideDoc) := ⟨_, rfl, rfl⟩
  obtain ⟨ts, h1, h2⟩ := h1
  have := (build_pieces _ _ _ h1 h2).says 0 (by
    intro e he
    simp only [atLevel, List.mem_map] at he
    obtain ⟨x, _, rfl⟩ := he
    rfl)
  rwa [atLevel_snd] at this

example (read : Bytes → Option Yaml) (hr : ReadsYaml read) (lib : Lib W E) (image : Files) (w : W) : ∃ addr ttl stores w',
    container read lib id (image.mount (go!"/etc/egts-receviver")
      (directory [(go!"config.yaml", [(10 : UInt8)].intercalate wideLines), (go!"readme.txt", [])])) w = .main (.run addr ttl stores w') ∧
    ReachedAt (go!"172.17.0.2") (go!"6000") addr := by
  obtain ⟨addr, ttl, stores, w', h1, h2⟩ := C101_compose_partial read hr lib id image
    (directory [(go!"config.yaml", [(10 : UInt8)].intercalate wideLines), (go!"readme.txt", [])]) _ rfl w wideLines wideDoc
    ⟨by simp [wideLines], by unfold wideLines; decide, rfl⟩ (by unfold Printable wideLines; decide) wide_says (go!"6000") rfl rfl (by
      intro x hx
      simp only [wideDoc, List.mem_cons, List.not_mem_nil, or_false] at hx
      rcases hx with rfl | rfl <;> simp [WellTyped, Yaml.IsText])
  exact ⟨addr, ttl, stores, w', h1, h2 _⟩

end Egts
