import Verif.Model.Generator
/-!
# codegen/generator.go:98-169: the imports of the generated file, and the package names in its text

Types are printed as `alias.Name` with the alias under which the package of the type was imported (273-283, 365-399). The packages
`context` and `qrpc` are printed with their aliases in most places (contextPkgAlias, qrpcPkgAlias), and literally in three: `context.Context` in
the callbacks (272, 319) and `*qrpc.ServeMux` in `Mux` (351).

`generator.RegisterUniquePackageName` (protoc-gen-gogo) gives every call a name that no earlier call in the same process was given, the
proposed one, with bad characters replaced, if it is free; it is a parameter here, with these properties as hypotheses of the theorems. Maps are lists without repeated
keys, in the order of iteration.
-/
namespace Qrpc

/-- generator.go:166-169 -/
def pkgLastName (p : Bytes) : Bytes := (p.reverse.takeWhile (· != 0x2f)).reverse

def contextPkg : Bytes := ascii "context"
def qrpcPkg : Bytes := ascii "github.com/zhiqiangxu/qrpc"
def codegenPkg : Bytes := ascii "github.com/zhiqiangxu/qrpc/codegen"
def jsonPkg : Bytes := ascii "encoding/json"
def fmtPkg : Bytes := ascii "fmt"

/-- The imports (path, alias) and the names given out so far in this process. -/
structure Imports where
  all : List (Bytes × Bytes)
  used : List Bytes
deriving DecidableEq

/-- generator.go:133-135: a package not yet in the map gets a name. -/
def Imports.add (reg : List Bytes → Bytes → Bytes) (s : Imports) (p : Bytes) : Imports :=
  if p ∈ s.all.map (·.1) then s
  else
    let a := reg s.used (pkgLastName p)
    ⟨s.all ++ [(p, a)], s.used ++ [a]⟩

/-- generator.go:123-151: `types` are the package paths of the second inputs and the first outputs of all methods; a type without a package
(predeclared) has the empty path. -/
def generateImports (reg : List Bytes → Bytes → Bytes) (used : List Bytes) (types : List Bytes) : Imports :=
  ((types.filter (· ≠ [])) ++ [contextPkg, qrpcPkg, codegenPkg, fmtPkg, jsonPkg]).foldl (Imports.add reg) ⟨[], used⟩

/-- The alias printed for a package: `allPkgs[p]`, the empty text if there is none. -/
def Imports.alias (s : Imports) (p : Bytes) : Bytes := ((s.all.find? (·.1 == p)).map (·.2)).getD []

/-- The package names in the printed text, with the package meant. -/
def printedRefs (s : Imports) (types : List Bytes) : List (Bytes × Bytes) :=
  -- types: 276-281, 326-331, 370-379, 390-399
  (types.filter (· ≠ [])).map (fun p => (p, s.alias p)) ++
  -- 190-193, 259-263, 380, 401, 404, 421, 345-352 by alias
  [contextPkg, qrpcPkg, codegenPkg, fmtPkg, jsonPkg].map (fun p => (p, s.alias p)) ++
  -- 272, 319; 351 literally
  [(contextPkg, ascii "context"), (qrpcPkg, ascii "qrpc")]

/-- Go's rule: a package name in the text means the package imported under that name. -/
def Imports.means (s : Imports) (name p : Bytes) : Bool := (s.all.find? (·.2 == name)).map (·.1) == some p

end Qrpc
