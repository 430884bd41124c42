import Verif.Model.Paths
import Verif.Props.Profile
/-!
# C86: files named after others stay in their directory
-/
namespace Verif.Props.Paths
open Verif Verif.Names Verif.Paths Verif.Profile Verif.Contacts
open Verif.Encoding (b64Decode)

/-- A name for a file in a directory. -/
structure Plain (n : Name) : Prop where
  ne : n ≠ []
  noSlash : '/' ∉ n
  notDot : n ≠ ['.']
  notUp : n ≠ ['.', '.']

instance (n : Name) : Decidable (Plain n) :=
  decidable_of_iff (n ≠ [] ∧ '/' ∉ n ∧ n ≠ ['.'] ∧ n ≠ ['.', '.'])
    ⟨fun h => ⟨h.1, h.2.1, h.2.2.1, h.2.2.2⟩, fun h => ⟨h.1, h.2, h.3, h.4⟩⟩

/-- `p` is the file `n` in the directory `d` of the storage directory `root`. -/
def Is (root : List Char) (d n : Name) (p : Path) : Prop :=
  p = ⟨(clean root).rooted, (clean root).parts ++ [d, n]⟩

theorem parts_ne (l : List Char) : parts l ≠ [] := by
  cases l with
  | nil => simp [parts]
  | cons c l =>
    simp only [parts]
    split
    · simp
    · split <;> simp

theorem parts_plain : ∀ {n : Name}, '/' ∉ n → parts n = [n]
  | [], _ => rfl
  | c :: n, h => by
    simp only [List.mem_cons, not_or] at h
    simp only [parts]
    rw [if_neg (fun e => h.1 e.symm), parts_plain h.2]

theorem parts_append : ∀ (a b : List Char), parts (a ++ '/' :: b) = parts a ++ parts b
  | [], b => by simp [parts]
  | c :: a, b => by
    simp only [List.cons_append, parts, parts_append a b]
    split
    · simp
    · cases h : parts a with
      | nil => exact absurd h (parts_ne a)
      | cons p ps => simp

theorem step_plain {r : Bool} {k : List Name} {n : Name} (h : Plain n) : cleanStep r k n = n :: k := by
  simp only [cleanStep]
  rw [if_neg (by rintro (h' | h'); exact h.ne h'; exact h.notDot h'), if_neg h.notUp]

theorem step_up {r : Bool} {k : List Name} {n : Name} (h : Plain n) : cleanStep r (n :: k) ['.', '.'] = k := by
  simp only [cleanStep]
  rw [if_neg (by decide), if_pos trivial, if_neg h.notUp]

/-- A path below a directory of the storage directory: its parts are walked from there. -/
theorem join_three (root d s : List Char) (hr : root ≠ []) (hd : Plain d) (hs : s ≠ []) :
    join [root, d, s] = ⟨(clean root).rooted,
      ((parts s).foldl (cleanStep (clean root).rooted) (d :: (clean root).parts.reverse)).reverse⟩ := by
  have hne : d ≠ [] := hd.ne
  have e : List.intercalate ['/'] ([root, d, s].filter (· ≠ [])) = root ++ '/' :: (d ++ '/' :: s) := by
    simp [List.filter, hr, hne, hs, List.intercalate, List.intersperse]
  have hh : (root ++ '/' :: (d ++ '/' :: s)).head? = root.head? := by
    cases root with
    | nil => exact absurd rfl hr
    | cons c r => rfl
  simp only [join, e, clean, hh, parts_append, parts_plain hd.noSlash, List.foldl_append, List.foldl_cons,
    List.foldl_nil, step_plain hd, List.reverse_reverse]

theorem join_plain (root d n : List Char) (hr : root ≠ []) (hd : Plain d) (hn : Plain n) :
    Is root d n (join [root, d, n]) := by
  rw [Is, join_three root d n hr hd hn.ne, parts_plain hn.noSlash]
  simp [step_plain hn]

/-- Digits are no slashes. -/
theorem dec_plain (id : List Char) (dev : Nat) (h : '/' ∉ id) : Plain (id ++ '_' :: dec dev) := by
  have hu : '_' ∈ id ++ '_' :: dec dev := by simp
  have hs : '/' ∉ dec dev := by
    intro h'
    have := dec_digits dev _ h'
    simp [isDigit] at this
  refine ⟨by simp, ?_, ?_, ?_⟩
  · simp only [List.mem_append, List.mem_cons, not_or]
    exact ⟨h, by decide, hs⟩
  · intro e; rw [e] at hu; exact absurd hu (by decide)
  · intro e; rw [e] at hu; exact absurd hu (by decide)

theorem remote_plain (id : List Char) (h : '/' ∉ id) : Plain ("remote_".toList ++ id) := by
  have hu : '_' ∈ "remote_".toList ++ id := by simp
  refine ⟨by simp, ?_, ?_, ?_⟩
  · simp only [List.mem_append, not_or]
    exact ⟨by decide, h⟩
  · intro e; rw [e] at hu; exact absurd hu (by decide)
  · intro e; rw [e] at hu; exact absurd hu (by decide)

theorem sessions_plain : Plain "sessions".toList := by decide
theorem identity_plain : Plain "identity".toList := by decide
theorem avatars_plain : Plain "avatars".toList := by decide

/-- **C86 (part).** The session of a peer whose id has no slash is in the directory for sessions, in a file
which is that of no other peer without a slash or other device. Missing: ids with a slash, see `C86_session_of_another`. -/
theorem C86_sessions_partial (root : List Char) (hr : root ≠ []) (id : List Char) (dev : Nat) (h : '/' ∉ id) :
    Is root "sessions".toList (id ++ '_' :: dec dev) (sessionPath root id dev) ∧
    ∀ id' dev', '/' ∉ id' → sessionPath root id' dev' = sessionPath root id dev → id' = id ∧ dev' = dev := by
  have h1 := join_plain root _ _ hr sessions_plain (dec_plain id dev h)
  refine ⟨h1, fun id' dev' h' he => ?_⟩
  have h2 := join_plain root _ _ hr sessions_plain (dec_plain id' dev' h')
  simp only [sessionPath] at he
  rw [Is] at h1 h2
  rw [h1, h2] at he
  simp only [Path.mk.injEq, List.append_cancel_left_eq, List.cons.injEq, and_true, true_and] at he
  obtain ⟨a, b⟩ := split_last (dec_no_underscore dev') (dec_no_underscore dev) he
  exact ⟨a, dec_inj b⟩

/-- **C86 (part).** The same for recorded identities; none of them is the own key. -/
theorem C86_identities_partial (root : List Char) (hr : root ≠ []) (id : List Char) (h : '/' ∉ id) :
    Is root "identity".toList ("remote_".toList ++ id) (remotePath root id) ∧
    (∀ id', '/' ∉ id' → remotePath root id' = remotePath root id → id' = id) ∧
    remotePath root id ≠ identityPath root := by
  have h1 := join_plain root _ _ hr identity_plain (remote_plain id h)
  refine ⟨h1, fun id' h' he => ?_, fun he => ?_⟩
  · have h2 := join_plain root _ _ hr identity_plain (remote_plain id' h')
    simp only [remotePath] at he
    rw [Is] at h1 h2
    rw [h1, h2] at he
    simpa using he
  · have h2 := join_plain root _ "identity_key".toList hr identity_plain (by decide)
    simp only [remotePath, identityPath] at he
    rw [Is] at h1 h2
    rw [h1, h2] at he
    simp at he

/-- **C86 (part).** Avatars of ids that are plain names are in the directory for avatars. -/
theorem C86_avatars_partial (root : List Char) (hr : root ≠ []) (uuid : List Char) (h : Plain uuid) :
    ∃ p, avatarPath root uuid = some p ∧ Is root "avatars".toList uuid p := by
  refine ⟨_, by rw [avatarPath, if_neg h.ne], join_plain root _ _ hr avatars_plain h⟩

example : "/home/u/.storage".toList ≠ [] ∧ '/' ∉ "0b23-42".toList ∧ Plain "0b23-42".toList ∧
    sessionPath "/home/u/.storage".toList "0b23-42".toList 1 =
      ⟨true, ["home".toList, "u".toList, ".storage".toList, "sessions".toList, "0b23-42_1".toList]⟩ := by
  decide +kernel

/-- **C86 refuted**, for all peers and devices: whoever is announced by the server as `x/../V` has the session file of
`V`, but not V's recorded identity: the check of the identity key looks at another file. -/
theorem C86_session_of_another (root : List Char) (hr : root ≠ []) (x v : List Char) (dev : Nat) (hx : Plain x)
    (hv : Plain v) (hn : ¬ "remote_".toList <+: v) :
    x ++ "/../".toList ++ v ≠ v ∧
    sessionPath root (x ++ "/../".toList ++ v) dev = sessionPath root v dev ∧
    remotePath root (x ++ "/../".toList ++ v) ≠ remotePath root v := by
  have e1 : x ++ "/../".toList ++ v ++ '_' :: dec dev = x ++ '/' :: (['.', '.'] ++ '/' :: (v ++ '_' :: dec dev)) := by
    simp
  have e2 : "remote_".toList ++ (x ++ "/../".toList ++ v) = ("remote_".toList ++ x) ++ '/' :: (['.', '.'] ++ '/' :: v) := by
    simp
  refine ⟨fun e => ?_, ?_, ?_⟩
  · have := congrArg List.length e
    simp at this
    omega
  · have h1 := join_plain root _ _ hr sessions_plain (dec_plain v dev hv.noSlash)
    simp only [sessionPath]
    rw [e1, join_three root _ _ hr sessions_plain (by simp), parts_append, parts_append, parts_plain hx.noSlash,
      parts_plain (by decide), parts_plain (dec_plain v dev hv.noSlash).noSlash, h1]
    simp [step_plain hx, step_up hx, step_plain (dec_plain v dev hv.noSlash)]
  · have h1 := join_plain root _ _ hr identity_plain (remote_plain v hv.noSlash)
    have hrx := remote_plain x hx.noSlash
    simp only [remotePath]
    rw [e2, join_three root _ _ hr identity_plain (by simp), parts_append, parts_append, parts_plain hrx.noSlash,
      parts_plain (by decide), parts_plain hv.noSlash, h1]
    simp only [List.cons_append, List.nil_append, List.foldl_cons, List.foldl_nil, step_plain hrx, step_up hrx, step_plain hv]
    intro e
    simp only [Path.mk.injEq, List.reverse_cons, List.reverse_reverse, List.append_assoc, true_and,
      List.append_cancel_left_eq, List.cons_append, List.nil_append, List.cons.injEq, and_true] at e
    exact hn ⟨v, e.symm⟩

example : Plain "x".toList ∧ Plain "0b23-42".toList ∧ ¬ "remote_".toList <+: "0b23-42".toList := by decide

/-- **C86 refuted**, for all files: a profile whose id is `../D/F` puts its avatar into the file `F` of the directory `D`
next to that for avatars, the own identity key included. -/
theorem C86_avatar_anywhere (root : List Char) (hr : root ≠ []) (d f : List Char) (hd : Plain d) (hf : Plain f) :
    ∃ p, avatarPath root ("../".toList ++ d ++ '/' :: f) = some p ∧ Is root d f p := by
  refine ⟨_, by rw [avatarPath, if_neg (by simp)], ?_⟩
  have e : "../".toList ++ d ++ '/' :: f = ['.', '.'] ++ '/' :: (d ++ '/' :: f) := by simp
  rw [Is, e, join_three root _ _ hr avatars_plain (by simp), parts_append, parts_append, parts_plain (by decide),
    parts_plain hd.noSlash, parts_plain hf.noSlash]
  simp only [List.cons_append, List.nil_append, List.foldl_cons, List.foldl_nil, step_up avatars_plain, step_plain hd,
    step_plain hf, List.reverse_cons, List.reverse_reverse, List.append_assoc]

example : ∃ p, avatarPath "/s".toList "../identity/identity_key".toList = some p ∧ p = identityPath "/s".toList :=
  ⟨_, rfl, by decide +kernel⟩

/-- The characters of an id from the server. -/
def chars (b : Bytes) : List Char := b.map (fun c => Char.ofNat c.toNat)

/-- **C86 refuted**, for the whole profile request and all file names and contents: a server that knows a
contact's profile key writes what it likes to the path it likes. -/
theorem C86_server_writes_files (g : Gcm) (z : Zk) (plain : Bytes → Res Reply) (m : Book) (uuid : Bytes) (c : Contact)
    (hc : Contacts.get m uuid = some c) (hk : 32 ≤ c.profileKey.length)
    (hu : c.uuid ≠ [] ∧ c.uuid ≠ "00000000-0000-0000-0000-000000000000".toList.map (fun c => UInt8.ofNat c.toNat))
    (u req r cr : Bytes) (h1 : z.uuid c.uuid = some u) (h2 : z.request u c.profileKey = some req)
    (h3 : z.receive u c.profileKey r = some cr) (file content : Bytes) (hf : file ≠ []) (hn : content ≠ []) :
    ∃ (cred : Bytes → Res Reply) (cdn : Bytes → Res Bytes) (p : Prof) (m' : Book),
      getProfileUUID g z plain cred cdn m uuid = .ok (p, m', some (file, content)) := by
  obtain ⟨body, hb⟩ : ∃ b, b = List.replicate 12 0 ++ g.lock (c.profileKey.take 32) (List.replicate 12 0) content [] := ⟨_, rfl⟩
  have hbl : 12 ≤ body.length := by rw [hb]; simp
  have hb0 : body ≠ [] := by rintro rfl; simp at hbl
  have hk0 : c.profileKey ≠ [] := by intro e; rw [e] at hk; simp at hk
  have hdec : decryptAvatar g body c.profileKey = .ok content := by
    simp only [decryptAvatar]
    rw [if_neg (by omega)]
    have e1 : body.take 12 = List.replicate 12 0 := by rw [hb]; exact List.take_left' (by simp)
    have e2 : body.drop 12 = g.lock (c.profileKey.take 32) (List.replicate 12 0) content [] := by
      rw [hb]; exact List.drop_left' (by simp)
    rw [e1, e2, g.unlock_lock]
  have hci : contactOf m uuid = c := by simp [contactOf, hc]
  have hfetch : fetchProfile g z plain (fun _ => .ok ⟨200, some { uuid := some file, avatar := some [49], credential := some r }⟩) c uuid =
      .ok { uuid := file, avatar := [49], credential := some cr } := by
    have hb64 : b64Decode [] = some [] := by decide
    simp only [fetchProfile, if_pos hk0, getProfileAndCredential, if_neg hk0]
    rw [if_neg (by rintro (h | h); exact hu.1 h; exact hu.2 h)]
    simp only [h1, h2, readReply, Res.ok_bind, unmarshal, decryptProfile, Option.getD_some, Option.getD_none, if_neg hk0,
      if_true, hb64, Option.orElse_some, h3]
  refine ⟨fun _ => .ok ⟨200, some { uuid := some file, avatar := some [49], credential := some r }⟩, fun _ => .ok body,
    { uuid := file, avatar := [49], credential := some cr },
    put m file (updateContact c { uuid := file, avatar := [49], credential := some cr } (some content)), ?_⟩
  · simp only [getProfileUUID, hci, hfetch, Res.ok_bind, fetchAvatar]
    rw [if_neg (by simp), if_neg hk0, if_neg hb0]
    simp only [hdec]
    rw [if_neg (by rintro (h | h); exact hn h; exact hf h)]
    rfl

example : ∃ (cred : Bytes → Res Reply) (cdn : Bytes → Res Bytes) (p : Prof) (m' : Book),
    getProfileUUID Gcm.toy ⟨some, fun _ _ => some [], fun _ _ _ => some []⟩ (fun _ => .err .http) cred cdn
      [([65], ⟨[65], [], [], List.replicate 32 7, false, [], [], [], none, []⟩)] [65] =
      .ok (p, m', some (Props.Profile.txt "../identity/identity_key", [1, 2])) :=
  C86_server_writes_files _ _ _ _ _ ⟨[65], [], [], List.replicate 32 7, false, [], [], [], none, []⟩ (by decide) (by decide)
    (by decide) [65] [] [] [] rfl rfl rfl _ _ (by decide) (by decide)

/-- The two together, for the own identity key. -/
example : avatarPath "/s".toList (chars (Props.Profile.txt "../identity/identity_key")) = some (identityPath "/s".toList) := by
  decide +kernel

end Verif.Props.Paths
