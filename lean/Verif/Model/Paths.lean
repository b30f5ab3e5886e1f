import Verif.Model.Kernel
/-
Paths as strings: filepath.Split, filepath.Join and filepath.Clean of the Go standard library (Unix), and the sub path of a
node (pref/defaults.go:51-83, internal/kernel/extend.go:32-66). A string is the list of its runes; `utf8Len` is Go's len.
-/
namespace Traverse

/-- A Go string (pref/defaults.go:51-83). -/
abbrev Str := List Char

/-- Go's len of a string: the number of bytes of its UTF-8 encoding. (used at pref/defaults.go:62-69.) -/
def utf8Len (s : Str) : Nat := (s.map Char.utf8Size).sum

/-- filepath.Split: the part up to and including the last separator, and the rest. (used at extend.go:32-36.) -/
def splitPath (s : Str) : Str × Str :=
  ((s.reverse.dropWhile (fun c => c != '/')).reverse, (s.reverse.takeWhile (fun c => c != '/')).reverse)

/-- tail (defaults.go:51-60): `offset` counts runes here. -/
def tailFrom (input : Str) (offset : Nat) : Str := if input.length ≤ offset then [] else input.drop offset

/-- difference (defaults.go:62-69): but the offset it passes is a number of bytes. -/
def difference (parent child : Str) : Str := tailFrom child (utf8Len parent)

/-- DefaultSubPathHook (defaults.go:76-83), the default of both FileSubPath and DirectorySubPath (options.go:143-157);
`path` is the node's path, its Extension.Parent is the first part of its split (extend.go:32-36). -/
def defaultSubPath (keep : Bool) (tree path : Str) (scope : Scope) : Str :=
  if scope = Scope.top then (if keep then ['/'] else [])
  else difference tree (splitPath path).1

/-- The trailing separator, removed unless to be kept (extend.go:51-63). -/
def trimSep (keep : Bool) (sub : Str) : Str :=
  if keep then sub else if ['/'].isSuffixOf sub then sub.take (sub.length - 1) else sub

/-- Extension.SubPath (extend.go:38-66) with the default hooks. -/
def subPath (keep : Bool) (tree path : Str) (scope : Scope) : Str := trimSep keep (defaultSubPath keep tree path scope)

/-! ### filepath.Join -/

/-- Cut at the separators. (filepath.Join, used at navigator-agent.go:153.) -/
def cut : Str → List Str
  | [] => [[]]
  | c :: cs =>
    if c = '/' then [] :: cut cs
    else match cut cs with
      | [] => [[c]]
      | w :: ws => (c :: w) :: ws

/-- One path element in filepath.Clean; the elements so far come innermost first. (filepath.Join, used at navigator-agent.go:153.) -/
def cleanStep (rooted : Bool) (acc : List Str) (w : Str) : List Str :=
  if w = [] ∨ w = ['.'] then acc
  else if w = ['.', '.'] then
    match acc with
    | [] => if rooted then [] else [w]
    | a :: rest => if a = ['.', '.'] then w :: acc else rest
  else w :: acc

/-- Elements with separators between them. (filepath.Join, used at navigator-agent.go:153.) -/
def interSep : List Str → Str
  | [] => []
  | [w] => w
  | w :: ws => w ++ '/' :: interSep ws

/-- The text of a clean path. (filepath.Join, used at navigator-agent.go:153.) -/
def render (rooted : Bool) (ws : List Str) : Str :=
  if rooted then '/' :: interSep ws else if ws = [] then ['.'] else interSep ws

/-- filepath.Clean. (filepath.Join, used at navigator-agent.go:153.) -/
def cleanPath (s : Str) : Str :=
  let rooted := s.head? == some '/'
  render rooted ((cut s).foldl (cleanStep rooted) []).reverse

/-- filepath.Join(parent, name) for a non-empty name (navigator-agent.go:153): empty elements are left out. -/
def joinPath (parent name : Str) : Str := if parent = [] then cleanPath name else cleanPath (parent ++ '/' :: name)

end Traverse
