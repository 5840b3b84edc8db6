import Verif.Props.XcorrOptions

/-!
# C71: exactly when asking for a station by its code yields that station
-/

namespace Gemlog

/-- Specification: a channel of the station with this code. -/
def OfStation (code id : List Nat) : Prop := ∃ net rest, id = net ++ [46] ++ code ++ [46] ++ rest ∧ 46 ∉ net

/-- **C71, codes.** Asking for codes, and excluding others, yields exactly those channels of the data whose identifier contains one of the codes asked for and none of those excluded. -/
theorem C71_codes_exact (search : List Nat → List Nat → Bool) (hs : LiteralSearch search) (all codes ex : List (List Nat)) (hne : codes ≠ [])
    (hc : ∀ c ∈ codes ++ ex, ∀ b ∈ c, IdChar b) (id : List Nat) :
    id ∈ checkInputIDs search all (some codes) (some ex) ↔ id ∈ all ∧ (∃ c ∈ codes, c <:+: id) ∧ ¬ ∃ c ∈ ex, c <:+: id := by
  have hsearch : ∀ c ∈ codes ++ ex, (search c id = true ↔ c <:+: id) := fun c h => by rw [hs c id (hc c h), isInfix_iff]
  have hfull : ∀ c ∈ codes, ¬ CompleteID c := fun c h => by rw [← fullID_iff, not_fullID (hc c (by simp [h]))]; simp
  rw [(C71_channels _ _ _ _).2]
  unfold ChannelWanted ChannelExcluded
  constructor
  · rintro ⟨h1, h2⟩
    rcases h1 with ⟨h | h, -⟩ | ⟨l, hl, e, he, h | ⟨-, hm, hse⟩⟩
    · cases h
    · simp only [Option.some.injEq] at h; exact absurd h hne
    · cases hl; exact absurd h.1 (hfull e he)
    · cases hl
      refine ⟨hm, ⟨e, he, (hsearch e (by simp [he])).mp hse⟩, ?_⟩
      rintro ⟨c, hcm, hci⟩
      exact h2 ⟨_, rfl, c, hcm, (hsearch c (by simp [hcm])).mpr hci⟩
  · rintro ⟨hm, ⟨e, he, hi⟩, h2⟩
    refine ⟨.inr ⟨_, rfl, e, he, .inr ⟨hfull e he, hm, (hsearch e (by simp [he])).mpr hi⟩⟩, ?_⟩
    rintro ⟨l, hl, c, hcm, hci⟩
    cases hl
    exact h2 ⟨c, hcm, (hsearch c (by simp [hcm])).mp hci⟩

/-- **C71, stations, exactly.** Asking for a station by its code yields exactly the channels of that station if and only if the code is no part of the identifier of any other channel in the data. -/
theorem C71_station_exact (search : List Nat → List Nat → Bool) (hs : LiteralSearch search) (all : List (List Nat)) (code : List Nat) (hc : ∀ b ∈ code, IdChar b) :
    (∀ id, id ∈ checkInputIDs search all (some [code]) none ↔ id ∈ all ∧ OfStation code id) ↔ ∀ id ∈ all, code <:+: id → OfStation code id := by
  have hin : ∀ id, OfStation code id → code <:+: id := by
    rintro id ⟨net, rest, rfl, -⟩
    exact ⟨net ++ [46], [46] ++ rest, by simp⟩
  have hmem : ∀ id, id ∈ checkInputIDs search all (some [code]) none ↔ id ∈ all ∧ code <:+: id := by
    intro id
    have h := C71_codes_exact search hs all [code] [] (by simp) (by simpa using hc) id
    have e : checkInputIDs search all (some [code]) (some []) = checkInputIDs search all (some [code]) none := by
      simp [checkInputIDs]
    rw [e] at h
    simpa using h
  constructor
  · intro h id hm hi
    exact ((h id).mp ((hmem id).mpr ⟨hm, hi⟩)).2
  · intro h id
    rw [hmem id]
    exact ⟨fun ⟨a, b⟩ => ⟨a, h id a b⟩, fun ⟨a, b⟩ => ⟨a, hin id b⟩⟩

/-- Station 12 beside station 3; beside station 112 the condition fails. -/
example : (∀ id ∈ [bytes "XA.12..HDF", bytes "XA.3..HDF"], bytes "12" <:+: id → OfStation (bytes "12") id) ∧
    ¬ ∀ id ∈ [bytes "XA.12..HDF", bytes "XA.112..HDF"], bytes "12" <:+: id → OfStation (bytes "12") id := by
  constructor
  · intro id hm hi
    simp only [List.mem_cons, List.not_mem_nil, or_false] at hm
    rcases hm with rfl | rfl
    · exact ⟨bytes "XA", bytes ".HDF", by decide +kernel, by decide +kernel⟩
    · exact absurd ((isInfix_iff _ _).mpr hi) (by decide +kernel)
  · intro h
    obtain ⟨net, rest, e, hn⟩ := h (bytes "XA.112..HDF") (by simp) ((isInfix_iff _ _).mp (by decide +kernel))
    have hb : bytes "XA.112..HDF" = [88, 65, 46, 49, 49, 50, 46, 46, 72, 68, 70] := by decide +kernel
    have hb2 : bytes "12" = [49, 50] := by decide +kernel
    rw [hb, hb2] at e
    match net with
    | [] => simp at e
    | [a] => simp at e
    | [a, b] => simp at e
    | a :: b :: c :: net =>
      simp only [List.cons_append, List.cons.injEq] at e
      exact hn (by simp [← e.2.2.1])

end Gemlog
