import Verif.Encoders.Spec

/-!
# Lemmas about the encoders
-/

namespace Verif.Encoders

open Verif Spec

/-- No encoder was registered. -/
abbrev nobody : Val → Option Val := fun _ => none

/-! ## What is written is plain -/

mutual

theorem write_isPlain (L : Lib) (b : Bool) : ∀ v, Plain (write L nobody b v)
  | .null => by rw [write]; exact .null
  | .bool x => by rw [write]; exact .bool x
  | .int n => by rw [write]; exact .int n
  | .str s => by rw [write]; exact .str s
  | .atom k x => by rw [write]; exact .str _
  | .list vs => by rw [write]; exact .list _ (writeAll_isPlain L b vs)
  | .tuple vs => by rw [write]; exact .list _ (writeAll_isPlain L b vs)
  | .set vs => by rw [write]; exact .list _ (writeAll_isPlain L false vs)
  | .dict fs => by rw [write]; exact .dict _ (writeFields_isPlain L b fs)
  | .enum c v => by rw [write]; exact write_isPlain L false v
  | .data c fs => by
    rw [write]
    cases b
    · exact .dict _ (writeFields_isPlain L true fs)
    · exact .dict _ (writeFields_isPlain L true fs)
  | .named c fs => by rw [write]; exact .list _ (writeSlots_isPlain L b fs)

theorem writeAll_isPlain (L : Lib) (b : Bool) : ∀ vs, PlainAll (writeAll L nobody b vs)
  | .nil => by rw [writeAll]; exact .nil
  | .cons v vs => by rw [writeAll]; exact .cons _ _ (write_isPlain L b v) (writeAll_isPlain L b vs)

theorem writeFields_isPlain (L : Lib) (b : Bool) : ∀ fs, PlainFields (writeFields L nobody b fs)
  | .nil => by rw [writeFields]; exact .nil
  | .cons k v fs => by rw [writeFields]; exact .cons _ _ _ (write_isPlain L b v) (writeFields_isPlain L b fs)

theorem writeSlots_isPlain (L : Lib) (b : Bool) : ∀ fs, PlainAll (writeSlots L nobody b fs)
  | .nil => by rw [writeSlots]; exact .nil
  | .cons k v fs => by rw [writeSlots]; exact .cons _ _ (write_isPlain L b v) (writeSlots_isPlain L b fs)

end

mutual

theorem write_plain (L : Lib) (ask : Val → Option Val) (b : Bool) : ∀ v, Plain v → write L ask b v = v
  | .null, _ => by rw [write]
  | .bool x, _ => by rw [write]
  | .int n, _ => by rw [write]
  | .str s, _ => by rw [write]
  | .list vs, .list _ h => by rw [write, writeAll_plain L ask b vs h]
  | .dict fs, .dict _ h => by rw [write, writeFields_plain L ask b fs h]

theorem writeAll_plain (L : Lib) (ask : Val → Option Val) (b : Bool) : ∀ vs, PlainAll vs → writeAll L ask b vs = vs
  | .nil, _ => by rw [writeAll]
  | .cons v vs, .cons _ _ h hs => by rw [writeAll, write_plain L ask b v h, writeAll_plain L ask b vs hs]

theorem writeFields_plain (L : Lib) (ask : Val → Option Val) (b : Bool) :
    ∀ fs, PlainFields fs → writeFields L ask b fs = fs
  | .nil, _ => by rw [writeFields]
  | .cons k v fs, .cons _ _ _ h hs => by
    rw [writeFields, write_plain L ask b v h, writeFields_plain L ask b fs hs]

end

theorem writeAll_eq_iff (L : Lib) (b : Bool) (vs : Vals) : writeAll L nobody b vs = vs ↔ PlainAll vs :=
  ⟨fun h => h ▸ writeAll_isPlain L b vs, writeAll_plain L nobody b vs⟩

theorem writeFields_eq_iff (L : Lib) (b : Bool) (fs : Fields) : writeFields L nobody b fs = fs ↔ PlainFields fs :=
  ⟨fun h => h ▸ writeFields_isPlain L b fs, writeFields_plain L nobody b fs⟩

/-! ## Equality -/

mutual

theorem same_refl : ∀ v, same v v = true
  | .null => by rw [same]
  | .bool x => by rw [same]; simp
  | .int n => by rw [same]; simp
  | .str s => by rw [same]; simp
  | .atom k x => by rw [same]; simp
  | .list vs => by rw [same]; exact sameAll_refl vs
  | .tuple vs => by rw [same]; exact sameAll_refl vs
  | .set vs => by rw [same]; exact sameAll_refl vs
  | .dict fs => by rw [same]; exact sameFields_refl fs
  | .enum c v => by rw [same, same_refl v]; simp
  | .data c fs => by rw [same, sameFields_refl fs]; simp
  | .named c fs => by rw [same, sameFields_refl fs]; simp

theorem sameAll_refl : ∀ vs, sameAll vs vs = true
  | .nil => by rw [sameAll]
  | .cons v vs => by rw [sameAll, same_refl v, sameAll_refl vs]; rfl

theorem sameFields_refl : ∀ fs, sameFields fs fs = true
  | .nil => by rw [sameFields]
  | .cons k v fs => by rw [sameFields, same_refl v, sameFields_refl fs]; simp

end

mutual

theorem same_plain : ∀ a b, same a b = true → Plain b → Plain a
  | .null, _, _, _ => .null
  | .bool x, _, _, _ => .bool x
  | .int n, _, _, _ => .int n
  | .str s, _, _, _ => .str s
  | .list as, .list bs, h, .list _ hb => by rw [same] at h; exact .list _ (sameAll_plain as bs h hb)
  | .dict as, .dict bs, h, .dict _ hb => by rw [same] at h; exact .dict _ (sameFields_plain as bs h hb)
  | .list as, .null, h, _ => by simp [same] at h
  | .list as, .bool _, h, _ => by simp [same] at h
  | .list as, .int _, h, _ => by simp [same] at h
  | .list as, .str _, h, _ => by simp [same] at h
  | .list as, .dict _, h, _ => by simp [same] at h
  | .dict as, .null, h, _ => by simp [same] at h
  | .dict as, .bool _, h, _ => by simp [same] at h
  | .dict as, .int _, h, _ => by simp [same] at h
  | .dict as, .str _, h, _ => by simp [same] at h
  | .dict as, .list _, h, _ => by simp [same] at h
  | .atom k x, b, h, hb => by cases hb <;> simp [same] at h
  | .tuple as, b, h, hb => by cases hb <;> simp [same] at h
  | .set as, b, h, hb => by cases hb <;> simp [same] at h
  | .enum c a, b, h, hb => by cases hb <;> simp [same] at h
  | .data c a, b, h, hb => by cases hb <;> simp [same] at h
  | .named c a, b, h, hb => by cases hb <;> simp [same] at h

theorem sameAll_plain : ∀ as bs, sameAll as bs = true → PlainAll bs → PlainAll as
  | .nil, _, _, _ => .nil
  | .cons a as, .cons b bs, h, .cons _ _ hb hbs => by
    rw [sameAll, Bool.and_eq_true] at h
    exact .cons _ _ (same_plain a b h.1 hb) (sameAll_plain as bs h.2 hbs)
  | .cons a as, .nil, h, _ => by simp [sameAll] at h

theorem sameFields_plain : ∀ as bs, sameFields as bs = true → PlainFields bs → PlainFields as
  | .nil, _, _, _ => .nil
  | .cons k a as, .cons l b bs, h, .cons _ _ _ hb hbs => by
    rw [sameFields, Bool.and_eq_true, Bool.and_eq_true] at h
    exact .cons _ _ _ (same_plain a b h.1.2 hb) (sameFields_plain as bs h.2 hbs)
  | .cons k a as, .nil, h, _ => by simp [sameFields] at h

end

theorem find_self (ms : List Val) (v : Val) (hv : v ∈ ms)
    (hp : ms.Pairwise fun a b => same a b = false ∧ same b a = false) : ms.find? (same · v) = some v := by
  induction ms with
  | nil => cases hv
  | cons m ms ih =>
    rw [List.pairwise_cons] at hp
    by_cases hs : same m v = true
    · rw [List.find?_cons_of_pos (p := (same · v)) hs]
      rcases List.mem_cons.mp hv with rfl | hv
      · rfl
      · rw [(hp.1 v hv).1] at hs; cases hs
    · rw [List.find?_cons_of_neg (p := (same · v)) hs]
      rcases List.mem_cons.mp hv with rfl | hv
      · exact absurd (same_refl _) hs
      · exact ih hv hp.2

/-! ## Lists of fields -/

theorem vals_ofList : ∀ l : Vals, Vals.ofList l.toList = l
  | .nil => rfl
  | .cons v vs => by simp [Vals.toList, Vals.ofList, vals_ofList vs]

theorem fields_ofList : ∀ l : Fields, Fields.ofList l.toList = l
  | .nil => rfl
  | .cons k v vs => by simp [Fields.toList, Fields.ofList, fields_ofList vs]

theorem keys_written (L : Lib) (ask : Val → Option Val) (b : Bool) :
    ∀ fs, (writeFields L ask b fs).toList.map (·.1) = fs.toList.map (·.1)
  | .nil => by rw [writeFields]
  | .cons k v fs => by
    rw [writeFields]
    simp only [Fields.toList, List.map_cons, keys_written L ask b fs]

theorem zip_written (L : Lib) (ask : Val → Option Val) (b : Bool) :
    ∀ fs, (fs.toList.map (·.1)).zip (writeSlots L ask b fs).toList = (writeFields L ask b fs).toList
  | .nil => by rw [writeFields, writeSlots]; rfl
  | .cons k v fs => by
    rw [writeFields, writeSlots]
    simp only [Fields.toList, Vals.toList, List.map_cons, List.zip_cons_cons, zip_written L ask b fs]

theorem length_written (L : Lib) (ask : Val → Option Val) (b : Bool) :
    ∀ fs, (writeSlots L ask b fs).toList.length = (fs.toList.map (·.1)).length
  | .nil => by rw [writeSlots]; rfl
  | .cons k v fs => by
    rw [writeSlots]
    simp only [Fields.toList, Vals.toList, List.map_cons, List.length_cons, length_written L ask b fs]

theorem aget_mem (given : List (Str × Val)) (hn : (given.map (·.1)).Nodup) (p : Str × Val) (hp : p ∈ given) :
    aget given p.1 = some p.2 := by
  induction given with
  | nil => cases hp
  | cons q rest ih =>
    obtain ⟨k, v⟩ := q
    rw [List.map_cons, List.nodup_cons] at hn
    unfold aget
    rcases List.mem_cons.mp hp with rfl | hp
    · simp
    · have hne : k ≠ p.1 := fun h => hn.1 (h ▸ List.mem_map.mpr ⟨p, hp, rfl⟩)
      rw [if_neg hne]
      exact ih hn.2 hp

theorem mapM_given (given l : List (Str × Val)) (h : ∀ p ∈ l, aget given p.1 = some p.2) :
    ((l.map (·.1)).mapM fun n => (aget given n).map fun v => (n, v)) = some l := by
  induction l with
  | nil => rfl
  | cons p l ih =>
    rw [List.map_cons, List.mapM_cons, h p List.mem_cons_self,
      ih (fun q hq => h q (List.mem_cons_of_mem _ hq))]
    rfl

theorem byName_self (names : List Str) (given : List (Str × Val)) (hk : given.map (·.1) = names)
    (hn : names.Nodup) : byName names given = some (Fields.ofList given) := by
  subst hk
  unfold byName
  rw [if_pos, mapM_given given given (fun p hp => aget_mem given hn p hp)]
  · rfl
  · rw [List.all_eq_true]
    intro p hp
    simpa using ⟨p.2, hp⟩

theorem mold_enum_plain (L : Lib) (E : Classes) (c : Nat) (v : Val) (h : Plain v) :
    mold L E (.enum c) v = ((E.members c).find? (same · v)).map (.enum c) := by
  cases h <;> rfl

theorem writeAll_map (L : Lib) (ask : Val → Option Val) (b : Bool) :
    ∀ vs, writeAll L ask b vs = Vals.ofList (vs.toList.map (write L ask b))
  | .nil => by rw [writeAll]; rfl
  | .cons v vs => by rw [writeAll, writeAll_map L ask b vs]; rfl

theorem writeFields_map (L : Lib) (ask : Val → Option Val) (b : Bool) :
    ∀ fs, writeFields L ask b fs = Fields.ofList (fs.toList.map fun f => (f.1, write L ask b f.2))
  | .nil => by rw [writeFields]; rfl
  | .cons k v fs => by rw [writeFields, writeFields_map L ask b fs]; rfl

/-! ## Leaving out `None` -/

mutual

theorem exclude_noNull (L : Lib) : ∀ v, Collection v → isNull v = false →
    NoNull (write L nobody false (exclude v))
  | .null, _, h => by cases h
  | .bool b, _, _ => by simp only [exclude, write]; exact .bool b
  | .int n, _, _ => by simp only [exclude, write]; exact .int n
  | .str s, _, _ => by simp only [exclude, write]; exact .str s
  | .atom k x, _, _ => by simp only [exclude, write]; exact .str _
  | .list vs, .list _ h, _ => by simp only [exclude, write]; exact .list _ (excludeAll_noNull L vs h)
  | .tuple vs, .tuple _ h, _ => by simp only [exclude, write]; exact .list _ (excludeAll_noNull L vs h)
  | .set vs, .set _ h, _ => by simp only [exclude, write]; exact .list _ (excludeAll_noNull L vs h)
  | .dict fs, .dict _ h, _ => by simp only [exclude, write]; exact .dict _ (excludeFields_noNull L fs h)
  | .named c fs, .named _ _ h, _ => by simp only [exclude, write]; exact .list _ (excludeSlots_noNull L fs h)

theorem excludeAll_noNull (L : Lib) : ∀ vs, CollectionAll vs → NoNullAll (writeAll L nobody false (excludeAll vs))
  | .nil, _ => by simp only [excludeAll, writeAll]; exact .nil
  | .cons v vs, .cons _ _ h hs => by
    rw [excludeAll]
    cases hn : isNull v with
    | true => rw [if_pos rfl]; exact excludeAll_noNull L vs hs
    | false =>
      rw [if_neg (by simp), writeAll]
      exact .cons _ _ (exclude_noNull L v h hn) (excludeAll_noNull L vs hs)

theorem excludeFields_noNull (L : Lib) : ∀ fs, CollectionFields fs →
    NoNullFields (writeFields L nobody false (excludeFields fs))
  | .nil, _ => by simp only [excludeFields, writeFields]; exact .nil
  | .cons k v fs, .cons _ _ _ h hs => by
    rw [excludeFields]
    cases hn : isNull v with
    | true => rw [if_pos rfl]; exact excludeFields_noNull L fs hs
    | false =>
      rw [if_neg (by simp), writeFields]
      exact .cons _ _ _ (exclude_noNull L v h hn) (excludeFields_noNull L fs hs)

theorem excludeSlots_noNull (L : Lib) : ∀ fs, CollectionFields fs →
    NoNullAll (writeAll L nobody false (excludeSlots fs))
  | .nil, _ => by simp only [excludeSlots, writeAll]; exact .nil
  | .cons k v fs, .cons _ _ _ h hs => by
    rw [excludeSlots]
    cases hn : isNull v with
    | true => rw [if_pos rfl]; exact excludeSlots_noNull L fs hs
    | false =>
      rw [if_neg (by simp), writeAll]
      exact .cons _ _ (exclude_noNull L v h hn) (excludeSlots_noNull L fs hs)

end

theorem excludeFields_toList : ∀ fs, (excludeFields fs).toList =
    (fs.toList.filter fun f => !isNull f.2).map fun f => (f.1, exclude f.2)
  | .nil => by rw [excludeFields]; rfl
  | .cons k v fs => by
    rw [excludeFields]
    cases hn : isNull v with
    | true => rw [if_pos rfl, excludeFields_toList fs]; simp [Fields.toList, hn]
    | false => rw [if_neg (by simp), Fields.toList, excludeFields_toList fs]; simp [Fields.toList, hn]

/-! ## The registry -/

theorem removeNamed_sublist {V R : Type} (n : Str) (es : List (Encoder V R)) :
    (removeNamed n es).Sublist es := by
  induction es with
  | nil => exact List.Sublist.slnil
  | cons e es ih =>
    unfold removeNamed
    by_cases h : e.name = n
    · rw [if_pos h]; exact List.sublist_cons_self e es
    · rw [if_neg h]; exact ih.cons_cons e

theorem removeNamed_not_mem {V R : Type} (n : Str) (es : List (Encoder V R))
    (h : (es.map (·.name)).Nodup) : n ∉ (removeNamed n es).map (·.name) := by
  induction es with
  | nil => simp [removeNamed]
  | cons e es ih =>
    rw [List.map_cons, List.nodup_cons] at h
    unfold removeNamed
    by_cases hn : e.name = n
    · rw [if_pos hn, ← hn]; exact h.1
    · rw [if_neg hn, List.map_cons, List.mem_cons]
      rintro (hc | hc)
      · exact hn hc.symm
      · exact ih h.2 hc

theorem encodeDefault_removeNamed {V R : Type} (n : Str) (es : List (Encoder V R)) (v : V)
    (h : ∀ e ∈ es, e.name = n → e.serialize v = none) :
    encodeDefault (removeNamed n es) v = encodeDefault es v := by
  induction es with
  | nil => rfl
  | cons e es ih =>
    unfold removeNamed
    by_cases hn : e.name = n
    · rw [if_pos hn]
      show _ = encodeDefault (e :: es) v
      rw [encodeDefault, h e List.mem_cons_self hn]
    · rw [if_neg hn, encodeDefault, encodeDefault, ih (fun x hx => h x (List.mem_cons_of_mem _ hx))]

end Verif.Encoders
