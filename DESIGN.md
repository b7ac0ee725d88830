# Formal model of go-serum-analyzer (Lean 4)

All Go code of `/repo` that decides something is modelled: `analysis/*.go` and `analysis/scc`. The unit of
modelling is the Go function; each Lean definition cites file and lines. `/repo/cmd` (9 lines) only starts the
`singlechecker` of golang.org/x/tools, which is modelled by its contract (`Session`). The test files are not
modelled.

## Layout (`lean/Verif`)

| module | models (`/repo/analysis/…`) |
|---|---|
| `GoString` | Go strings as byte lists; `strings.Split/Index/HasPrefix/TrimPrefix/TrimSpace/Join`, UTF-8 decoding |
| `CodeSet` | `set_operations.go`, once with a heap of maps and arbitrary iteration orders, once as values (agreement proved) |
| `CodeValid`, `Constant` | `isErrorCodeValid`; `getErrorCodeFromConstant`, with `constant.Value.String`'s shortening and `strconv.Quote/Unquote` |
| `ErrorDocs` | `find_error_docs.go` |
| `Annotation` | `annotation.go` |
| `Report` | `checkIfErrorCodesMatch`, `reportIfCodesDoNotMatch`, `ErrorCodes.String`, sorting |
| `FactText` | `String` of the other facts and of code sets; the texts of the diagnostics that list codes |
| `Scc` | `scc/strongly_connected_components.go` and a depth first search driving it |
| `CallGraph` | `findErrorCodesInFunc`, `…ReturnStmts`, the cache, `unifyAnalysisResultForComponent`, `runVerify`'s loop; what one body does is a `Plan` |
| `Ast` | the part of `go/ast`, `go/types` and the fact store the analyzer reads; `searchMethod(Type)` |
| `Taint` | `taint_spread.go`, `isIdentOriginOutsideFunctionScope` |
| `Extract` | `extract_error_code.go` |
| `Analyse` | `findErrorCodesIn*`, `findCodesAssignedToErrorCodeField*` of `analyse.go`: from a body to its `Plan` |
| `Claims` | `findErrorReturningFunctions`, `checkFunctionReturnsError`, `findClaimedErrorCodes`, `findErrorCodeParamIdent`, the exports, `collectFunctions` |
| `ErrorTypes` | `tag_error_types.go` |
| `Interfaces` | `interfaces_collect.go` |
| `Conversions` | `interfaces_verify.go` |
| `Run` | `runVerify`: all phases in order, the map orders of the phases in a `Schedule` |
| `Messages` | the formats of all diagnostics, `fmt.Sprintf` as far as used, what is shown for a run |
| `Session` | `cmd/go-serum-analyzer/main.go`: several packages, and how facts get from one to the other |
| `Spec/*` | specifications, not referring to the functions above except for syntax and facts: grammar of doc comments and annotations (`DocGrammar`, `AnnotationGrammar`), call graphs and least code sets (`CallGraphSpec`), what flows where in a body (`Within`, `FlowSpec`, `BodySpec`, `FieldSpec`), panics (`CrashSpec`), interfaces and conversions (`InterfaceSpec`, `ConversionSpec`, `AcceptSpec`), run time semantics of Go (`Runtime`, `CodeMethodExec`), the fragments (`Supported`), whole runs (`RunSpec`), several packages (`SessionSpec`) and their joint execution (`Linked`, and step by step `Machine`) |
| `Props/*` | the property theorems with examples and witnesses; nothing else is claimed |
| everything else | lemmas |

## Trusted base

* Lean's kernel. Axioms: of the theorems named in `MANIFEST.json`, none uses an axiom besides `propext`,
  `Classical.choice` and `Quot.sound`; `scripts/axioms.sh` prints the list for each theorem (`AXIOMS.txt`
  has its output). There is no axiom of our own, no compiled evaluation, no Mathlib.
* The reading of the Go source into the model.
* Parameters of the model, over which every theorem quantifies (nothing is assumed about them except where
  a theorem has a hypothesis): every answer of `go/types` (fields of `Env`, `TypeDecls`, `Conv.Info`), the
  syntax tree, `ast.Object` resolution, comment attachment (`Env.comments`), imported facts, and the iteration
  order of every map (`Schedule`, `MatchOrders`, `Orders`, `Env.fieldOrder`).
* Modelled by contract, not from source: Go's `strings`, `strconv.Quote/Unquote` and `constant.Value.String`
  (written out from their documentation and known implementation; `unicode.IsPrint` is a parameter),
  `sort.Strings` (insertion sort), `CommentGroup.Text` (`Comments.lean`, from its source), `ast.Inspect` and `inspector.Nodes` (traversal order), `astutil.Unparen`,
  `types.Identical` as equality of type descriptions, the fact store as a function from objects; and the driver
  (`structure Session`): imported packages are analysed first, and a package is given all facts known to a package
  it imports about an object, or, for objects that cannot be referred to, possibly none.
* Panics are values: `Except Stop`, where `Stop.panic` carries the source line and `Stop.outOfFuel` means that
  the recursion bound of the model was used up. C21's theorems show that the latter never happens; all theorems
  about results are about runs that ended, and C22's theorems say when they do.

The texts of messages are in `Messages` (and `FactText`); the rest of the model has a constructor for each kind of message, with the values inserted.
Not modelled: log output, the order of the slice of codes of an error type fact (map iteration order; every use makes a set of it or sorts it), source positions other than node identities, fact serialisation by gob, loading of
packages, generics (the pinned code predates them), and type expressions inside expressions (they are node
identities; they contain no statements). Messages produced during a run are kept per phase
(`Outcome`); their order between phases is fixed by `runVerify`.

## Conventions

* A property theorem is stated against `Spec/*`, or outright. Hypotheses are (a) guarantees of the Go
  compiler (`Parsed`, `ScopeOk`, `Objects`, `Arity`, …), (b) `Schedule.Fair`: iteration orders are permutations,
  (c) limits of the analyzer — then the name ends in `_partial`, and there is a theorem showing that the property
  fails outside. Under each theorem an `example` meets the hypotheses.
* Whole runs: a theorem of `Props/Run*` starts from `Ran P S strict out` (`RunStages.ran_iff`: this is
  `runVerify P S strict = .ok out`), and `Props/RunExample.lean` has a package with an error type, a constructor,
  an interface, a cross call and a conversion which meets all hypotheses of all of them.

## Per property

* **C01** byte/rune-level model; equality with the regular expression's language over all byte strings.
* **C02–C07** line state machine; equivalence with a declarative grammar (`Spec/DocGrammar`), which is shown to be unambiguous; round trip with a writer; insertion lemmas; refusals.
* **C08, C09** annotation parser against `Spec/AnnotationGrammar`; effect as set identities.
* **C10** *false of the code* (`annotation_leaks`: variables already followed for one return are not followed again for the next, so the first return's `-code` also counts for the second). Partial: returns not sharing variables.
* **C11** heap model of Go maps incl. nil maps and aliasing.
* **C12, C13** mismatch text: exact set differences, sorted; independent of all orders.
* **C14–C16** Tarjan's algorithm, invariant over the DFS, all graphs.
* **C17–C19** the search computes the least solution of an inductive specification (`CodesOf`), sharing within recursion cycles. The invariant of the search is stated relative to a set of functions closed under calls (`CallGraphLocal.lean`), so exactness is proved for each function that does not reach a literal calling back its visitor (`Settled`), however the rest of the program looks; partial for the others (`order_matters` shows order dependence), where C44 remains.
* **C20** the same for whole runs: exported facts, mismatches, conversions, per body reports. `success_order_independent`: also whether the search panics is independent of the order; `Run.success_order_independent_partial` says so of whole runs. The order in which the variables are visited whose fields are looked at (`Env.fieldOrder`, analyse.go:845) never matters (`Run.field_order_independent`, by a simulation of the search on rearranged plans, `FieldOrder.lean`).
* **C21** every fuel bound of the model suffices, for every program.
* **C22** *false of the code* (11 kinds of panics, below). For bodies, an exact characterisation: `Crash.body_exact` (in terms of the syntax: `Spec/CrashSpec`), and `CallGraph.succeeds_iff` for calls. For whole runs: `Run.declarations_read` (the first stages panic exactly for an empty result list), `Run.run_succeeds_iff` and `Run.run_panics_exact` (the rest, in terms of the syntax of the functions looked at and of the conversions), `Run.run_succeeds_partial` (packages without the listed constructs).
* **C23** variable tracking equals an inductive flow relation; *false of the code* for aliases of nested literals' parameters.
* **C40** a weaker invariant of the tracking that needs no hypothesis on the body (`TaintScope`: everything reported is declared elsewhere or blocked, and stems from an expression that flows into the result), for single identifiers, bodies, and whole runs (`Props/ReturnScope`, `Props/RunScope`).
* **C24** soundness against a nondeterministic run time semantics (`Spec/Runtime.lean`): evaluation of expressions with stores, calls and returns, in which every execution order, every branch and every history of assignments is possible. Partial: `Spec/Supported.lean`; each of its conditions has a witness in `Props/SoundnessLimits.lean`. Only the function itself and the functions it can reach have to be in scope and free of reports. `ScopeCheck.lean` decides a sufficient condition by evaluation (`inScope_sound`), and `Props/ScopeCheck.lean` derives from a check of a whole package that there is a run for every iteration order and that the listed functions only return errors with the listed codes; `Testdata/Sound.lean` has the instances for all packages in analysis/testdata (functions about which something is reported, and a few with unsupported stores, are left out). What the syntax trees leave out for them (`Extra`) is generated by `scripts/conformance/sound.py`.
  The theorem assumes that functions known by their declaration keep it (`Promises`); C42 discharges this.
* **C41** an invariant over the order in which packages are analysed.
* **C42** the semantics of C24 with calls executed across packages and through interfaces (`Spec/Linked.lean`); induction over the depth of calls, and over the chain of conversions by which a value gets into an interface variable. Partial: `Linked.Supported`; `Props/LinkedLimits.lean` has, for each of its conditions, a program that is accepted without any report and returns an undeclared code. `Props/LinkedExample.lean`: two packages that satisfy everything, with an execution through four functions.
* **C43** `Spec/Machine.lean` is a small-step machine: a heap of errors (shared, changed in place), variables (one per executed declaration, captured by function values), any number of functions being executed, values of evaluated expressions. It has no program counter — any expression or statement of a function being executed may come next — so it has all executions of the Go program that it can express. An invariant over its steps (`MachineInv`, `MachineSteps`) shows that every value in every reachable state is described by the semantics of C24 for every execution that can see it, hence (`MachineLinked`) returned errors are those of C42. Partial: scope of C42, and the machine leaves out: stores into the code field of an error held by an execution unrelated to the storing function (unless `Extra.foreign`; the analyzer misses them: `aliased_store_missed`, `foreign_store_missed`), return statements whose annotation is not true, deferred functions changing results (unless `Extra.deferred`), and named results as seen by deferred functions. `Props/Machine.lean` has three executions: a store into a returned error, a store by a function literal, a call through an interface of another package.
* **C44** the part of the same invariant that holds for every program: nothing found is made up, and what comes out of a body itself is found.
* **C45** the texts are cut at bytes that well-formed codes do not contain; quoted names are prefix-free (`quoteLoop_read`). `needs_plain`: with spaces in codes it would be false.
* **C46** the reading of literals, composed from C27 and C28, against a definition of "the expression initialising the field" from the text. White space (C04, C08) is defined by code points and their encodings in `Spec/Space.lean`; `Space.trim_exact` shows that the table of byte sequences in the model is exactly this.
* **C47** bodies are understood in the same way as long as the same parameters are declared (`plan_of_params`), so by C19 a second run compares the same codes with the new declarations; the codes to add and remove are read off the text (C45), and a comment declaring them is written by the writer of C03. Partial as C19.
* **C48** of the table of functions only the function's own entry is read (`Edits.lean`), and the codes of a function depend only on the functions reachable from it (`codes_local`). Partial as C19.
* **C49** by induction over the order of packages: equal facts in (up to the order of interface tables) give equal facts out and equal diagnostics (`Run.same_inputs_partial`, which generalises C20 to different imported facts). Partial as C20.
* **C50** the codes recorded for called functions appear in what is found for a body, and influence nothing else (`Dependencies.lean`): the steps are alike, with related sets of codes; the least solutions are then related code by code. For conversions (`Props/DependencyConversions.lean`), where Go converts values does not depend on facts, and what the methods of the value's type have is related in the same way. Partial as C19 (and C34 for conversions).
* **C51** `CommentGroup.Text` with directives and compaction of blank lines, against a specification of the lines of a comment group (`Spec/CommentSpec`); composed with C02/C03, C08 and C38 for the facts exported by a run.
* **C52** the search through a `Code` method is characterised exactly (`Finished`: what was looked at is what `CodeExec.Looked`, `Followed`, `Referenced` say; every diagnostic is due and every due one is there), against `Spec/TypeReportSpec`; for one type and for whole runs.
* **C53** positions are only used to decide whether an object is declared inside of a function (`Rearrange.lean`, congruence of every function of the model); a permutation of the functions is another map order; the other lists are only used through membership and `flatMap` (`RearrangeLists.lean`). Partial as C17–C19 (function literals that call back).
* **C54** `Props/Checker.lean`: the hypotheses of C20 (distinct objects, acyclic embedding, called literals neither called otherwise nor calling back) are decided by a boolean function of the package and the facts after one run, with the graph of calls given as a certificate; it is proved sound for every package, so that one evaluation (`decide +kernel`) yields a statement about all orders. `Testdata/*` are the packages of the test suite; imported packages may have been analysed in any order too.
* **C55** `Props/Adoption.lean`: two runs, over `P` and `P.documented doc`. As the codes of a package's own functions are not known while bodies are compared (`during`), all that bodies are understood with is the same in both (`plan_of_params`); the rest follows from the exact characterisations of the phases (C35, C36, C37, C38, C52, C33).
* **C56** `CommentMap.lean`, `Props/CommentMap.lean`: `ast.NewCommentMap` as a walk over the list of nodes (in the order of `ast.Inspect`) and the sorted comment groups, with its stack of enclosing nodes; invariants about `pg`, `p` and the stack say which node each comment group meets. The list of nodes is arbitrary (it need not come from a tree). `scripts/conformance/comments.py` compares the model with the implementation in `goparse.py` on 195 files and variants.
* **C57** `Messages.lean`: all 49 formats, verbatim, and `sprintf` for the verbs used. `Props/Messages.lean`: a decision procedure on pairs of formats (`apart`: their texts differ whatever is inserted; `clear`: what is inserted can be read back), proved sound for all values (quoted names are prefix-free, C45) and evaluated by the kernel on all pairs of formats.
* **C58** `Spec/BodyReportSpec.lean`: each problem is a constructor of `Problem`, in terms of syntax, of what may become the returned error (`ErrExpr`, `ErrVar`, `ErrCall`) and of what flows into a variable (`Tracked`, `Source`, `Destructured`). `BodyReports.lean` proves it equivalent to the reports of `plan`, function by function; `Props/BodyReports.lean` lifts it to runs. `BodyCheck.lean` decides the hypotheses on syntax and types (`Regular`, `Checked`, `Typed`) by evaluation, `Props/BodyCheck.lean` lifts this to packages, and `Testdata/Bodies.lean` evaluates it for the 24 packages of analysis/testdata: for these C58 holds without hypotheses, in every run.
* **C59** `Spec/Renaming.lean` defines the renamed package (`Package.rename`, by recursion over syntax) and `SameOutcome`. A relational proof: variable tracking, extraction of codes, bodies, error types, the search and the conversions preserve the relation "same, apart from names of variables" (`Rename*.lean`, one theorem per function of the model); `Props/Renaming.lean` puts the phases together. `renamed_moved` adds that positions change, too (C53). Two theorems show that the conditions are needed.
* **C60** the same proof: `Package.rename` also leaves out statements (`Renaming.drop`), and the relations between visited nodes and events allow for the missing ones, which are never looked at in tracking variables and finding returns (`Node.Quiet`) and yield no checks of conversions, by C34's theorem about single nodes (`ConvertsNothing` is stated with the specification of conversions; `RunObjs.lean` shows which types can become interfaces with error methods).
* **C61** `Verif/Removal.lean`: the environments of the two runs differ in the functions found by name and in the facts about error constructors; going through the analysis of a body, either the same plan results or the plan has a step to a function that is gone. `Props/Removal.lean` relates the stages of the two runs (functions kept, facts, plans) and uses the exact characterisations of facts and reports (C23, C37, C38), as in C48 and C55. Hypotheses: `Removal.Unused`. For conversions also `Removal.Aside`: a method looked at for a conversion is understood with the codes of the package's functions hidden if it is analysed for some declaration, so what functions removed lead to has to be analysed for another one too; then `smuggled_iff_partial` is compared for both runs. `Props/RemovalSuccess.lean`: if the run with the functions succeeds, so does the one without them (the exact panic conditions `run_succeeds_iff` of both runs are compared; every body, check and method of the second run is one of the first).
* **C62** `Spec/ImportSpec.lean` says what a source can come across. `Verif/Frame.lean` goes through all phases and shows that each reads facts only about such objects (`Like`), and that facts recorded on the way overwrite both sides alike (`Over`); for bodies the lemma of C61 is used with nothing removed. `Props/ImportsSession.lean` combines it with C41: in a program the imported facts are those recorded by the owners.
* **C63** induction over the packages in their order, with C62: what a package comes across is declared by itself or by packages that it imports, which are in both analyses and have recorded the same. With other orders of maps (`Props/PartOrder.lean`): the second run is first compared with one that knows the facts of the first about everything the package does not come across (C62), so that both know the same facts, as C49 demands.
* **C64** `Spec/BodyCodesSpec.lean`: each origin of a code is a constructor (`ReturnCode`, `CallCode`, `LiteralCode`, …), over syntax, types and imported facts; `Derived` is the least assignment closed under them. `BodyCodes.lean` proves it equivalent to what the plan of a body yields, function by function (the counterpart of C58); `Props/BodyCodes.lean` composes it with the call graph (C23) into the reports of a run.
* **C25–C28, C36** decision logic; C26/C27 have witnesses.
* **C29** `Code` methods against an execution semantics (`Spec/CodeMethodExec`).
* **C30** field assignments; witnesses for nested and parenthesised ones.
* **C31–C34** conversions: the walk finds exactly the conversions of the language (`Spec/ConversionSpec`, derived from the Go specification's assignability rules), each is judged exactly.
* **C35, C37, C38** whole-run statements.
* **C39** invariant over the whole analysis, and for whole runs.

## Disagreements found (property false of the code)

Each has a theorem exhibiting it, unless marked (noted only).

1. C27: constants longer than 70 characters are refused although well-formed (`constant.Value.String` shortens).
2. C22: the same local function literal called in two returns: `Visit` panics.
3. C20/C18: literal callback cycle: results depend on the map order; `Run.Callback.order_matters` gives a whole package which one order accepts silently and another one reports.
4. C10: annotations leak (shared `visitedIdents`).
5. C22: `err, ok := m[k]`, `<-ch`, `x.(T)` as source of a followed variable: panic.
6. C22/C34: `f(g())`, `return g()`, `f(xs...)` where a target is an error interface: panic.
7. C26/C22: `NewErr(args())`: panic; method expressions shift argument positions.
8. C24: range variables, `x op= e`, aliased field assignments, `*p = …`, the zero value of a failed assertion `x, ok := y.(T)`, `errors.As`, deferred changes, callees changing the field, zero values, conversions: missed.
9. C30: assignment nested in another assignment's literal; `(err).Field = …`: missed.
10. C31/C32: methods of other packages without declaration are accepted; interfaces which do not declare a method smuggle codes.
11. C33: dot-imported embedded interfaces are ignored; a function-local interface of the same name replaces the package's one.
12. C36/C22: `func f() () {}`: index -1.
13. C34: calls of values of named function types are unchecked.
14. C22: calling a function without body (assembly, linkname): nil body.
15. C22: `range` over a named pointer-to-array type; conversion to a function type treated as call.
16. C22: `_, err := f()` with `f` of a named function type: failing type assertion.
17. C22: `x.a, x.b = …` on an error variable whose type has no code field: nil dereference.
18. C23: alias of a nested literal's parameter is accepted silently.
19. C29: receiver reassigned in `Code`; named result changed in a deferred closure.
20. C34: `x.(*T)` for pointer types is checked spuriously.
21. C42: a method that is an error constructor (`param: code`) implements an interface method with declared codes, though it returns what it is given (`Scheme.constructor_escapes`).
22. C42: `type Same Getter`: conversions to `Same` are not checked, but the codes declared for `Getter.Get` are trusted when it is called on a `Same` (`Scheme.same_escapes`; likewise if `Same` is embedded, `Scheme.embedding_escapes`).
23. C42: type assertions from interfaces not known to implement the error interface are not checked (`Scheme.asserted_escapes`); method sets merged from a declared and an undeclared embedded interface (`Scheme.both_escapes`); types embedding an undeclared interface (`Scheme.wrapper_escapes`).
24. (noted only) type aliases: `type A = Err` is tagged twice, the second time without fields; `var f func() error = nil` is reported as function "nil" of a dot-imported package; a target type `*Iface` with a named pointer source panics; `init`/`_` collapse in the function lookup; calls through a value of a function type with methods which is itself an error type use that type's codes.

## Comparison with the test suite

`scripts/conformance` has a parser and type checker (Python) for the part of Go used in `analysis/testdata`. `run.py` evaluates the model on
the 20 packages listed in `analyse_test.go` and compares with all 606 expectations there (`// want` comments: 594 diagnostics and facts;
`TestNotImplemented`: 12 diagnostics): there is no disagreement, neither a missing nor an unexpected diagnostic or fact. The full
text of each diagnostic is matched with the expectation. `testdata.py` writes the packages as Lean modules (`Testdata/*`), with C54's theorems for each: the expected result, and
the lines (file, line, text) that are printed. This tests the reading
of the source into the model; it is not part of the trusted base of any theorem about the model.

## Tests of the theorems

`scripts/mutate.py` applies an edit to a scratch copy, rebuilds, stubs failing proofs to let the rest compile,
and lists the theorems of the manifest that fall. Results: `seeded/LOG.jsonl`.
