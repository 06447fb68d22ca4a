import Verif.Spec.ParseArgs

/-!
# C52: the example's command line
-/

namespace Uavcan.ParseArgs
open Spec

theorem splitEq_device : splitEq ['d', 'e', 'v', 'i', 'c', 'e'] = (['d', 'e', 'v', 'i', 'c', 'e'], none) := by decide

theorem splitEq_deviceEq (n : Str) :
    splitEq ('d' :: 'e' :: 'v' :: 'i' :: 'c' :: 'e' :: '=' :: n) = (['d', 'e', 'v', 'i', 'c', 'e'], some n) := by
  simp [splitEq]

/-- The effect of one item on the rest of the parse. -/
theorem parseLoop_item (required : Bool) (ns : Namespace) (it : Item) (hv : it.Valid) (rest : List Str) :
    parseLoop required ns (it.render ++ rest) =
      match it with
      | .longSep n => if required then parseLoop false { ns with devices := ns.devices ++ [n] } rest else .ub .nullDeref
      | .longEq n => if required then parseLoop false { ns with devices := ns.devices ++ [n] } rest
                     else .ok (.SuccessPartial, ns)
      | .shortSep n | .shortCat n => parseLoop false { ns with devices := ns.devices ++ [n] } rest
      | .continuous | .c => parseLoop required { ns with run_continuously := true } rest
      | .other _ => parseLoop required ns rest := by
  have ld : lookup ['d', 'e', 'v', 'i', 'c', 'e'] = some .d := by decide
  cases it with
  | longSep n =>
    show parseLoop required ns (['-', '-', 'd', 'e', 'v', 'i', 'c', 'e'] :: n :: rest) = _
    rw [parseLoop.eq_def]
    simp only [splitEq_device, ld]
  | longEq n =>
    show parseLoop required ns (('-' :: '-' :: 'd' :: 'e' :: 'v' :: 'i' :: 'c' :: 'e' :: '=' :: n) :: rest) = _
    rw [parseLoop.eq_def]
    simp only [splitEq_deviceEq, ld]
  | shortSep n =>
    show parseLoop required ns (['-', 'd'] :: n :: rest) = _
    rw [parseLoop.eq_def]
    rfl
  | shortCat n =>
    show parseLoop required ns (('-' :: 'd' :: n) :: rest) = _
    cases n with
    | nil => exact absurd rfl hv
    | cons a n => rw [parseLoop.eq_def]; rfl
  | continuous =>
    show parseLoop required ns (['-', '-', 'c', 'o', 'n', 't', 'i', 'n', 'u', 'o', 'u', 's'] :: rest) = _
    rw [parseLoop.eq_def]
    simp only [show splitEq ['c', 'o', 'n', 't', 'i', 'n', 'u', 'o', 'u', 's'] = (['c', 'o', 'n', 't', 'i', 'n', 'u', 'o', 'u', 's'], none) by decide,
      show lookup ['c', 'o', 'n', 't', 'i', 'n', 'u', 'o', 'u', 's'] = some .c by decide]
  | c =>
    show parseLoop required ns (['-', '-', 'c'] :: rest) = _
    rw [parseLoop.eq_def]
    simp only [show splitEq ['c'] = (['c'], none) by decide, show lookup ['c'] = some .e by decide]
  | other s =>
    show parseLoop required ns (s :: rest) = _
    rw [parseLoop.eq_def]
    rcases hv with rfl | h
    · rfl
    · cases s with
      | nil => rfl
      | cons a s =>
        have : a ≠ '-' := by simpa using h
        dsimp only
        split <;> simp_all

/-- The flag after a command line. -/
def contOf (c : Bool) (items : List Item) : Bool := c || items.any Item.isContinuous

theorem commandLine_cons (it : Item) (items : List Item) : commandLine (it :: items) = it.render ++ commandLine items := rfl

/-- After the first device: fine as long as there is no long form. -/
theorem parse_after (ns : Namespace) (items : List Item) (hv : ∀ it ∈ items, it.Valid) :
    ((∀ it ∈ items, it.isLong = false) → parseLoop false ns (commandLine items) =
      .ok (.Success, ⟨ns.devices ++ devicesOf items, contOf ns.run_continuously items⟩)) ∧
    ((∃ it ∈ items, it.isLong = true) → ∀ x, parseLoop false ns (commandLine items) ≠ .ok (.Success, x)) := by
  induction items generalizing ns with
  | nil =>
    refine ⟨fun _ => ?_, ?_⟩
    · show parseLoop false ns [] = _
      rw [parseLoop]; simp [devicesOf, contOf]
    · rintro ⟨it, h, -⟩; cases h
  | cons it items ih =>
    have hv' : ∀ i ∈ items, i.Valid := fun i h => hv i (List.mem_cons_of_mem _ h)
    rw [commandLine_cons, parseLoop_item false ns it (hv it (List.mem_cons_self ..))]
    simp only [List.mem_cons, forall_eq_or_imp, exists_eq_or_imp]
    cases it with
    | longSep n => simp [Item.isLong]
    | longEq n => simp [Item.isLong]
    | shortSep n =>
      obtain ⟨a, b⟩ := ih ⟨ns.devices ++ [n], ns.run_continuously⟩ hv'
      simp only [Item.isLong, true_and, Bool.false_eq_true, false_or]
      exact ⟨fun h => by rw [a h]; simp [devicesOf, Item.device?, contOf, Item.isContinuous], b⟩
    | shortCat n =>
      obtain ⟨a, b⟩ := ih ⟨ns.devices ++ [n], ns.run_continuously⟩ hv'
      simp only [Item.isLong, true_and, Bool.false_eq_true, false_or]
      exact ⟨fun h => by rw [a h]; simp [devicesOf, Item.device?, contOf, Item.isContinuous], b⟩
    | continuous =>
      obtain ⟨a, b⟩ := ih ⟨ns.devices, true⟩ hv'
      simp only [Item.isLong, true_and, Bool.false_eq_true, false_or]
      exact ⟨fun h => by rw [a h]; simp [devicesOf, List.filterMap_cons, Item.device?, contOf, Item.isContinuous], b⟩
    | c =>
      obtain ⟨a, b⟩ := ih ⟨ns.devices, true⟩ hv'
      simp only [Item.isLong, true_and, Bool.false_eq_true, false_or]
      exact ⟨fun h => by rw [a h]; simp [devicesOf, List.filterMap_cons, Item.device?, contOf, Item.isContinuous], b⟩
    | other s =>
      obtain ⟨a, b⟩ := ih ns hv'
      simp only [Item.isLong, true_and, Bool.false_eq_true, false_or]
      exact ⟨fun h => by rw [a h]; simp [devicesOf, List.filterMap_cons, Item.device?, contOf, Item.isContinuous], b⟩

/-- The property as stated in `properties.jsonl`. -/
def C52_Statement : Prop :=
  (∀ args, (parseArgs args).Defined) ∧
  ∀ items : List Item, (∀ it ∈ items, it.Valid) → devicesOf items ≠ [] →
    parseArgs (commandLine items) = .ok (.Success, ⟨devicesOf items, items.any Item.isContinuous⟩)

/-- The devices of a command line, as items. -/
def deviceItems (items : List Item) : List Item := items.filter fun it => it.device?.isSome

theorem isLong_device {it : Item} (h : it.isLong = true) : it.device?.isSome = true := by
  cases it <;> simp_all [Item.isLong, Item.device?]

theorem parse_before (ns : Namespace) (items : List Item) (hv : ∀ it ∈ items, it.Valid) :
    (devicesOf items = [] → parseLoop true ns (commandLine items) =
      .ok (.BadArgument, ⟨ns.devices, contOf ns.run_continuously items⟩)) ∧
    (devicesOf items ≠ [] → (∀ it ∈ (deviceItems items).drop 1, it.isLong = false) →
      parseLoop true ns (commandLine items) =
        .ok (.Success, ⟨ns.devices ++ devicesOf items, contOf ns.run_continuously items⟩)) ∧
    (devicesOf items ≠ [] → (∃ it ∈ (deviceItems items).drop 1, it.isLong = true) →
      ∀ x, parseLoop true ns (commandLine items) ≠ .ok (.Success, x)) := by
  induction items generalizing ns with
  | nil =>
    refine ⟨fun _ => ?_, fun h => absurd rfl h, fun h => absurd rfl h⟩
    show parseLoop true ns [] = _
    rw [parseLoop]; simp [contOf]
  | cons it items ih =>
    have hv' : ∀ i ∈ items, i.Valid := fun i h => hv i (List.mem_cons_of_mem _ h)
    rw [commandLine_cons, parseLoop_item true ns it (hv it (List.mem_cons_self ..))]
    have dev : ∀ n, it.device? = some n → it.isContinuous = false →
        (devicesOf (it :: items) = [] → parseLoop false { ns with devices := ns.devices ++ [n] } (commandLine items) =
          .ok (.BadArgument, ⟨ns.devices, contOf ns.run_continuously (it :: items)⟩)) ∧
        (devicesOf (it :: items) ≠ [] → (∀ i ∈ (deviceItems (it :: items)).drop 1, i.isLong = false) →
          parseLoop false { ns with devices := ns.devices ++ [n] } (commandLine items) =
            .ok (.Success, ⟨ns.devices ++ devicesOf (it :: items), contOf ns.run_continuously (it :: items)⟩)) ∧
        (devicesOf (it :: items) ≠ [] → (∃ i ∈ (deviceItems (it :: items)).drop 1, i.isLong = true) →
          ∀ x, parseLoop false { ns with devices := ns.devices ++ [n] } (commandLine items) ≠ .ok (.Success, x)) := by
      intro n hd hc
      have e1 : devicesOf (it :: items) = n :: devicesOf items := by simp [devicesOf, hd]
      have e2 : (deviceItems (it :: items)).drop 1 = deviceItems items := by simp [deviceItems, hd]
      have e3 : contOf ns.run_continuously (it :: items) = contOf ns.run_continuously items := by simp [contOf, hc]
      rw [e1, e2, e3]
      obtain ⟨a, b⟩ := parse_after { ns with devices := ns.devices ++ [n] } items hv'
      refine ⟨fun h => (by cases h), fun _ h => ?_, fun _ h => ?_⟩
      · rw [a]
        · simp
        · intro i hi
          cases hl : i.isLong with
          | false => rfl
          | true =>
            have := h i (List.mem_filter.2 ⟨hi, isLong_device hl⟩)
            rw [hl] at this; cases this
      · obtain ⟨i, hi, hl⟩ := h
        exact b ⟨i, (List.mem_filter.1 hi).1, hl⟩
    have nodev : ∀ ns' : Namespace, it.device? = none → ns'.devices = ns.devices →
        contOf ns'.run_continuously items = contOf ns.run_continuously (it :: items) →
        (devicesOf (it :: items) = [] → parseLoop true ns' (commandLine items) =
          .ok (.BadArgument, ⟨ns.devices, contOf ns.run_continuously (it :: items)⟩)) ∧
        (devicesOf (it :: items) ≠ [] → (∀ i ∈ (deviceItems (it :: items)).drop 1, i.isLong = false) →
          parseLoop true ns' (commandLine items) =
            .ok (.Success, ⟨ns.devices ++ devicesOf (it :: items), contOf ns.run_continuously (it :: items)⟩)) ∧
        (devicesOf (it :: items) ≠ [] → (∃ i ∈ (deviceItems (it :: items)).drop 1, i.isLong = true) →
          ∀ x, parseLoop true ns' (commandLine items) ≠ .ok (.Success, x)) := by
      intro ns' hd h1 h2
      have e1 : devicesOf (it :: items) = devicesOf items := by simp [devicesOf, hd]
      have e2 : deviceItems (it :: items) = deviceItems items := by simp [deviceItems, hd]
      rw [e1, e2, ← h2, ← h1]
      exact ih ns' hv'
    cases it with
    | longSep n => exact dev n rfl rfl
    | longEq n => exact dev n rfl rfl
    | shortSep n => exact dev n rfl rfl
    | shortCat n => exact dev n rfl rfl
    | continuous => exact nodev ⟨ns.devices, true⟩ rfl rfl (by simp [contOf, Item.isContinuous])
    | c => exact nodev ⟨ns.devices, true⟩ rfl rfl (by simp [contOf, Item.isContinuous])
    | other s => exact nodev ns rfl rfl (by simp [contOf, Item.isContinuous])

/-- C52, partial: a valid command line that names a device is parsed as it should exactly if all devices but the first use the
short form; one that names none is rejected. Missing: a second device in a long form. -/
theorem C52_devices_partial (items : List Item) (hv : ∀ it ∈ items, it.Valid) :
    (devicesOf items = [] → ∃ ns, parseArgs (commandLine items) = .ok (.BadArgument, ns)) ∧
    (devicesOf items ≠ [] →
      (parseArgs (commandLine items) = .ok (.Success, ⟨devicesOf items, items.any Item.isContinuous⟩) ↔
        ∀ it ∈ (items.filter fun it => it.device?.isSome).drop 1, it.isLong = false)) := by
  obtain ⟨a, b, c⟩ := parse_before ⟨[], false⟩ items hv
  refine ⟨fun h => ⟨_, a h⟩, fun h => ?_⟩
  simp only [List.nil_append, contOf, Bool.false_or] at b
  constructor
  · intro hp it hit
    cases hl : it.isLong with
    | false => rfl
    | true => exact absurd hp (c h ⟨it, hit, hl⟩ _)
  · exact b h

/-- C52 is false of the code: naming two devices with `--device` constructs a string from a null pointer. -/
theorem C52_full_statement_fails : ¬ C52_Statement ∧
    ∀ a b : Str, parseArgs ["--device".toList, a, "--device".toList, b] = .ub .nullDeref := by
  have h2 : ∀ a b : Str, parseArgs ["--device".toList, a, "--device".toList, b] = .ub .nullDeref := by
    intro a b
    exact (parseLoop_item true ⟨[], false⟩ (.longSep a) trivial (Item.render (.longSep b) ++ [])).trans
      (parseLoop_item false ⟨[a], false⟩ (.longSep b) trivial [])
  refine ⟨fun h => ?_, h2⟩
  obtain ⟨x, hx⟩ := h.1 ["--device".toList, [], "--device".toList, []]
  rw [h2] at hx
  cases hx

/-- A command line that is parsed as it should. -/
example : parseArgs ["x".toList, "--device=can0".toList, "-d".toList, "can1".toList, "--c".toList, "-dcan2".toList] =
    .ok (.Success, ⟨["can0".toList, "can1".toList, "can2".toList], true⟩) :=
  ((C52_devices_partial [.other "x".toList, .longEq "can0".toList, .shortSep "can1".toList, .c, .shortCat "can2".toList]
    (by simp [Item.Valid])).2 (by decide)).2 (by simp [Item.device?, Item.isLong])

end Uavcan.ParseArgs
