import Verif.Model.Api

/-
Model of `/repo/src/password_data.cpp` and `/repo/include/password_data.h`.

The file is not part of the build (`/repo/src/CMakeLists.txt` does not list it) and would not compile against the present
`Bytes`: it uses `popFirstBytes`, a growing default-constructed container and byte vectors. The missing functions are read
as their names and uses say: `popFirstBytes(n)` takes the first `n` bytes away, or gives an empty optional when there are
fewer, and containers grow.

`std::unordered_map` is a list of pairs with distinct keys; since the order of iteration is not determined by the
standard, functions that iterate take the order as an argument (`it`). `std::tolower` is that of the "C" locale.
-/
namespace Verif.Pw

/-- `std::string`, /repo/include/password_data.h l.8-11 -/
abbrev Text := List Byte

/-- `struct PasswordSet`, password_data.h l.7-32 -/
structure Entry where
  site : Text
  username : Text
  email : Text
  password : Text
deriving DecidableEq, Repr

/-- `PasswordSet::isValid`, password_data.h l.13-31 -/
def Entry.isValid (p : Entry) : Bool :=
  if p.site.length > 255 then false
  else if p.username.length > 255 then false
  else if p.email.length > 255 then false
  else if p.password.length > 255 then false
  else true

/-- `struct PasswordSiteSet`, password_data.h l.34-77 -/
structure SiteSet where
  username : Text
  email : Text
  password : Text
deriving DecidableEq, Repr

/-- `setUsername`, password_data.h l.48-54 -/
def SiteSet.setUsername (s : SiteSet) (t : Text) : Res SiteSet :=
  if t.length > 255 then .exn .invalidArgument else .ok { s with username := t }

/-- `setEmail`, password_data.h l.56-62 -/
def SiteSet.setEmail (s : SiteSet) (t : Text) : Res SiteSet :=
  if t.length > 255 then .exn .invalidArgument else .ok { s with email := t }

/-- `setPassword`, password_data.h l.64-70 -/
def SiteSet.setPassword (s : SiteSet) (t : Text) : Res SiteSet :=
  if t.length > 255 then .exn .invalidArgument else .ok { s with password := t }

/-- constructor, password_data.h l.42-46 -/
def SiteSet.make (u e p : Text) : Res SiteSet := do
  let s ← SiteSet.setUsername ⟨[], [], []⟩ u
  let s ← s.setEmail e
  s.setPassword p

/-- `siteMap`, password_data.h l.82 -/
abbrev SiteMap := List (Text × List SiteSet)

/-- `siteMap.count(site) != 0`, password_data.cpp l.89, l.200 and alike -/
def SiteMap.has (m : SiteMap) (k : Text) : Bool := m.any fun x => x.1 == k

/-- `siteMap[site]` read; creates an empty vector for a missing key, which reading does not distinguish; password_data.cpp l.89-105 -/
def SiteMap.at (m : SiteMap) (k : Text) : List SiteSet :=
  match m.find? (fun x => x.1 == k) with
  | some x => x.2
  | none => []

/-- `siteMap[site] = v`, password_data.cpp l.89-105 -/
def SiteMap.put : SiteMap → Text → List SiteSet → SiteMap
  | [], k, v => [(k, v)]
  | x :: m, k, v => if x.1 == k then (k, v) :: m else x :: SiteMap.put m k v

/-- `popFirstBytes` as used in password_data.cpp l.29 and l.59: first `n` bytes and the rest -/
def popFirst (n : Nat) (d : Text) : Option (Text × Text) :=
  if n ≤ d.length then some (d.take n, d.drop n) else none

/-- one size byte and the bytes it announces, password_data.cpp l.27-86; `none`: `ERR_FILEDATA_INVALID` (l.35-55,
l.66-84) -/
def readField (d : Text) : Option (Text × Text) :=
  match popFirst 1 d with
  | some ([n], d) => popFirst n.toNat d
  | _ => none

/-- password_data.cpp l.87-92: what is done with the name of the site -/
def openSite (m : SiteMap) (site : Text) : SiteMap :=
  if m.has site = false then m.put site [] else m.put site (m.at site ++ [⟨[], [], []⟩])

/-- password_data.cpp l.94-105: `this->siteMap[site].back().setX(data_str)`; `back()` of an empty vector is undefined -/
def setLast (m : SiteMap) (site : Text) (f : SiteSet → Res SiteSet) : Res SiteMap :=
  match (m.at site).getLast? with
  | none => .fatal .ub
  | some x => do
    let y ← f x
    pure (m.put site ((m.at site).dropLast ++ [y]))

/-- one pass of the inner loop, password_data.cpp l.24-111; the map is kept when a part is missing (`none`) -/
def readSet (m : SiteMap) (d : Text) : Res (SiteMap × Option Text) :=
  match readField d with
  | none => .ok (m, none)
  | some (site, d) =>
    let m := openSite m site
    match readField d with
    | none => .ok (m, none)
    | some (u, d) => do
      let m ← setLast m site (·.setUsername u)
      match readField d with
      | none => .ok (m, none)
      | some (e, d) => do
        let m ← setLast m site (·.setEmail e)
        match readField d with
        | none => .ok (m, none)
        | some (p, d) => do
          let m ← setLast m site (·.setPassword p)
          pure (m, some d)

/-- the outer loop, password_data.cpp l.18-112; every pass takes at least one byte, so `fuel` beyond the length is never used up -/
def readSets : Nat → SiteMap → Text → Res (SiteMap × Out Unit)
  | 0, _, _ => .fatal .diverge
  | fuel + 1, m, d =>
    if d.length = 0 then .ok (m, .success ())
    else do
      let (m, rest) ← readSet m d
      match rest with
      | none => pure (m, .fail .ERR_FILEDATA_INVALID)
      | some d => readSets fuel m d

/-- `PasswordData::constructFileData` (noexcept), password_data.cpp l.11-114; a null `dec_data` pointer is read as in the present
`FileDataStruct`, dereferencing it is undefined. That the bytes read are taken away from the caller's struct is not modelled. -/
def constructFileData (m : SiteMap) (f : FileDataStruct) : Res (SiteMap × Out Unit) :=
  Res.noexcept do
    if (← f.getFileMode) ≠ 1 then pure (m, .fail .ERR_FILEMODE_INVALID)
    else
      match f.decData with
      | none => .fatal .ub
      | some b => readSets (b.data.length + 1) [] b.data

/-- password_data.cpp l.142, l.147, l.152: `std::vector<unsigned char>(x.getUsername().begin(), x.getUsername().begin())`. The getters return
copies, so the two iterators belong to different strings, which is undefined; `mixed` says what happens to come out. -/
def addMixed (mixed : Text → Res Text) (ret t : Text) : Res Text := do
  let v ← mixed t
  pure (ret ++ UInt8.ofNat v.length :: v)

/-- one pass of the loop over the sets of a site, password_data.cpp l.138-154 -/
def addSet (mixed : Text → Res Text) (ret site : Text) (x : SiteSet) : Res Text := do
  let ret := ret ++ UInt8.ofNat site.length :: site
  let ret ← addMixed mixed ret x.username
  let ret ← addMixed mixed ret x.email
  addMixed mixed ret x.password

/-- password_data.cpp l.135-161: `while (true)` over the sets; an empty vector is indexed out of bounds at once -/
def addSiteSets (mixed : Text → Res Text) (ret site : Text) : List SiteSet → Res Text
  | [] => .fatal .ub
  | [x] => addSet mixed ret site x
  | x :: y :: xs => do
    let ret ← addSet mixed ret site x
    addSiteSets mixed ret site (y :: xs)

/-- password_data.cpp l.126-162 -/
def addSites (mixed : Text → Res Text) (ret : Text) : SiteMap → Res Text
  | [] => .ok ret
  | x :: m =>
    if x.2.length % 3 ≠ 0 then .exn .runtimeError
    else do
      let ret ← addSiteSets mixed ret x.1 x.2
      addSites mixed ret m

/-- `PasswordData::getBytes`, password_data.cpp l.123-164; `it`: the map in the order of iteration -/
def getBytes (mixed : Text → Res Text) (it : SiteMap) : Res Text := addSites mixed [] it

/-- `PasswordData::getFileData`, password_data.cpp l.116-121 -/
def getFileData (mixed : Text → Res Text) (it : SiteMap) : Res FileDataStruct := do
  let b ← getBytes mixed it
  FileDataStruct.make 1 (some (Bytes.full b))

/-- `std::tolower`, password_data.cpp l.170, l.185 -/
def lower (c : Byte) : Byte := if 65 ≤ c ∧ c ≤ 90 then c + 32 else c

/-- `s.find(t) != npos`, password_data.cpp l.186 -/
def contains (t : Text) : Text → Bool
  | [] => t.isEmpty
  | c :: s => t.isPrefixOf (c :: s) || contains t s

/-- the entries of one site, password_data.cpp l.177-179, l.188-190 -/
def entriesOf (x : Text × List SiteSet) : List Entry :=
  x.2.map fun s => ⟨x.1, s.username, s.email, s.password⟩

/-- `PasswordData::getSets` (noexcept), password_data.cpp l.166-197; `it`: the map in the order of iteration, `srt`: what `std::sort` does,
which is not stable -/
def getSets (it : SiteMap) (srt : List Entry → List Entry) (text : Text) (sorted : Bool) : List Entry :=
  let low := text.map lower
  let l := if text.isEmpty then it.flatMap entriesOf
    else (it.filter fun x => contains low (x.1.map lower)).flatMap entriesOf
  if sorted then srt l else l

/-- `PasswordData::addPw`, password_data.cpp l.199-203 -/
def addPw (m : SiteMap) (p : Entry) : Res SiteMap :=
  if p.isValid = false then .exn .invalidArgument
  else do
    let m := if m.has p.site = false then m.put p.site [] else m
    let s ← SiteSet.make p.username p.email p.password
    pure (m.put p.site (m.at p.site ++ [s]))

/-- `PasswordData::remPw`, password_data.cpp l.205-207: empty -/
def remPw (m : SiteMap) (_ : Entry) : SiteMap := m

/-- `PasswordData::editPw`, password_data.cpp l.209-211: empty -/
def editPw (m : SiteMap) (_ : Entry) : SiteMap := m

/-- the calls that can change the list, /repo/include/password_data.h l.88, l.98-100 -/
inductive Call
  | add (p : Entry)
  | rem (p : Entry)
  | edit (p : Entry)
  | load (f : FileDataStruct)
deriving DecidableEq, Repr

/-- a call by a caller that catches exceptions, /repo/include/password_data.h l.88, l.98-100 -/
def call (m : SiteMap) : Call → Res SiteMap
  | .add p =>
    match addPw m p with
    | .exn _ => .ok m
    | r => r
  | .rem p => .ok (remPw m p)
  | .edit p => .ok (editPw m p)
  | .load f => do
    let (m, _) ← constructFileData m f
    pure m

/-- a history of calls on a new object, /repo/include/password_data.h l.88, l.98-100 -/
def calls : SiteMap → List Call → Res SiteMap
  | m, [] => .ok m
  | m, c :: cs => do
    let m ← call m c
    calls m cs

end Verif.Pw
