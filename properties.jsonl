{"id": "C01", "title": "Error code format check is exactly the documented pattern", "statement": "A string is accepted as an error code if and only if it matches ^[a-zA-Z][a-zA-Z0-9\\-]*[a-zA-Z0-9]$ or ^[a-zA-Z]$; in particular no non-ASCII or malformed UTF-8 string is ever accepted.", "quantifier": "every Go string, i.e. every finite byte sequence, valid UTF-8 or not", "why_tests_cant": "The check mixes byte indexing (first/last char) with rune iteration; equality with a regular language over all byte strings cannot be sampled.", "anchors": ["analysis/analyse.go:isErrorCodeValid", "analysis/analyse.go:checkErrorCodeValid"]}
{"id": "C02", "title": "Docstring declarations are parsed by exactly the documented grammar", "statement": "Parsing a doc comment succeeds with a given set of codes, parameter and none-flag if and only if the comment has the documented shape: no declaration; or one 'Errors: none...' line; or one 'Errors:' line, one blank line, then a block up to the next blank line whose '- ' lines each carry a code or a parameter; with no later line starting with 'Errors:'.", "quantifier": "every doc comment text (any byte string, any number of lines)", "why_tests_cant": "The parser is a state machine over unboundedly many lines; agreement with a declarative grammar must hold for all line sequences.", "anchors": ["analysis/find_error_docs.go:findErrorDocsSM.run", "analysis/find_error_docs.go:stateInit.step", "analysis/find_error_docs.go:stateNeedBlankLine.step", "analysis/find_error_docs.go:stateParsing.step", "analysis/find_error_docs.go:stateDone.step"]}
{"id": "C03", "title": "Written declarations read back exactly", "statement": "For every list of well-formed codes with arbitrary one-line comments (and optional parameter), a doc comment written in the documented format is parsed back to exactly that set of codes, duplicates removed, with that parameter.", "quantifier": "every list of valid codes, every comment text, every indentation", "why_tests_cant": "A round-trip over unbounded lists of codes and free comment text.", "anchors": ["analysis/find_error_docs.go:findErrorDocsSM.run", "analysis/find_error_docs.go:stateParsing.step"]}
{"id": "C04", "title": "Prose around and inside a declaration does not change it", "statement": "Adding lines before the declaration (that are not themselves declarations), after the closing blank line (that do not start with 'Errors:'), non-dash comment lines inside the block, or changing indentation/trailing white space never changes the parsed result.", "quantifier": "every doc comment, every inserted line, every amount of white space", "why_tests_cant": "Insertion at any position of any text.", "anchors": ["analysis/find_error_docs.go:findErrorDocsSM.run"]}
{"id": "C05", "title": "Malformed declarations are never silently accepted", "statement": "If a doc comment starts an 'Errors:' block but has no blank line after it, or the block has a '- ' line without ' --', with an empty or malformed code, an empty or second parameter, or any further 'Errors:' line follows a declaration, then parsing fails with an error and nothing is declared.", "quantifier": "every doc comment text", "why_tests_cant": "Negative requirement over all inputs.", "anchors": ["analysis/find_error_docs.go:stateParsing.step", "analysis/find_error_docs.go:stateNeedBlankLine.step", "analysis/find_error_docs.go:stateDone.step"]}
{"id": "C06", "title": "'Errors: none' declares the empty set and nothing else", "statement": "When the first declaration line of a doc comment starts with 'Errors: none' and no later line starts with 'Errors:', the function is recorded as declaring no codes and no parameter; the none flag is set in no other case, and a none-declaration never coexists with declared codes.", "quantifier": "every doc comment text", "why_tests_cant": "Quantifies over all text before and after.", "anchors": ["analysis/find_error_docs.go:stateInit.step", "analysis/analyse.go:findClaimedErrorCodes"]}
{"id": "C07", "title": "Only well-formed codes ever enter the analysis from comments", "statement": "Every code obtained from a doc comment or from a return-statement annotation is a well-formed error code.", "quantifier": "every doc comment and every annotation comment", "why_tests_cant": "Invariant over every parse path.", "anchors": ["analysis/find_error_docs.go:stateParsing.step", "analysis/annotation.go:extractCodesFromStringAnnotation", "analysis/annotation.go:extractCodeModificationsFromStringAnnotation"]}
{"id": "C08", "title": "Annotation comments are parsed by exactly the documented grammar", "statement": "A comment above a return yields an annotation exactly when it has a line starting with 'Error Codes' followed by '= list', '+= list', '-= list' or a space-separated list of +code/-code; the resulting overwrite/add/remove sets are exactly the listed codes; in every malformed case a diagnostic is emitted and the comment has no effect on the codes.", "quantifier": "every comment text attached to a return statement", "why_tests_cant": "All byte strings, all list lengths.", "anchors": ["analysis/annotation.go:getReturnStmtAnnotations", "analysis/annotation.go:extractCodesFromStringAnnotation", "analysis/annotation.go:extractCodeModificationsFromStringAnnotation"]}
{"id": "C09", "title": "Annotation effect on its return statement", "statement": "With an overwrite annotation the return contributes exactly the listed codes; otherwise it contributes (analysed codes minus removed codes) plus added codes; a code both removed and added is contributed.", "quantifier": "every return statement, every analysed code set, every annotation", "why_tests_cant": "All sets and all annotation contents.", "anchors": ["analysis/analyse.go:findErrorCodesInFunctionReturnStmts"]}
{"id": "C10", "title": "An annotation affects only the return statement it is attached to", "statement": "A remove annotation on one return statement does not remove codes contributed by another return statement of the same function.", "quantifier": "every function body, every placement of annotations", "why_tests_cant": "Requires reasoning about all pairs of returns and the state shared between them.", "anchors": ["analysis/analyse.go:findErrorCodesInFunctionReturnStmts", "analysis/analyse.go:findErrorCodesFromIdentTaint", "analysis/taint_spread.go:findSpread"]}
{"id": "C11", "title": "Code sets behave as mathematical sets", "statement": "Set/SliceToSet/Slice/Add/Union/Difference implement finite sets: membership laws hold, no duplicates, inputs of Union/Difference are not modified, and the outcome does not depend on map iteration order.", "quantifier": "every slice and every pair of sets, every iteration order", "why_tests_cant": "All sizes and all iteration orders.", "anchors": ["analysis/set_operations.go:Set", "analysis/set_operations.go:SliceToSet", "analysis/set_operations.go:Slice", "analysis/set_operations.go:Add", "analysis/set_operations.go:Union", "analysis/set_operations.go:Difference"]}
{"id": "C12", "title": "A mismatch is reported iff declared and found codes differ, and names exactly the differences", "statement": "A function with a declaration gets a mismatch diagnostic if and only if its found and declared code sets differ; the 'missing codes' list is exactly found-minus-declared and the 'unused codes' list exactly declared-minus-found.", "quantifier": "every pair of code sets", "why_tests_cant": "All finite sets.", "anchors": ["analysis/analyse.go:checkIfErrorCodesMatch", "analysis/analyse.go:reportIfCodesDoNotMatch"]}
{"id": "C13", "title": "Reported texts are deterministic", "statement": "The text of mismatch messages, interface messages and exported ErrorCodes facts is a function of the sets involved: it is the same for every map iteration order (the listed codes are sorted).", "quantifier": "every pair of sets and every pair of iteration orders", "why_tests_cant": "Go randomises map iteration; no test run covers all orders.", "anchors": ["analysis/analyse.go:checkIfErrorCodesMatch", "analysis/analyse.go:ErrorCodes.String", "analysis/interfaces_verify.go:checkIfTypeIsValidSubtypeForInterface"]}
{"id": "C14", "title": "The component algorithm returns exactly the strongly connected components", "statement": "Driving the SCC state over any finite directed graph by depth first search in the documented protocol, the reported components are exactly the strongly connected components of the visited part, each visited node being reported in exactly one component.", "quantifier": "every finite graph, every edge order, every order of start nodes", "why_tests_cant": "Unbounded graphs.", "anchors": ["analysis/scc/strongly_connected_components.go:Visit", "analysis/scc/strongly_connected_components.go:EndVisit", "analysis/scc/strongly_connected_components.go:HandleEdge", "analysis/scc/strongly_connected_components.go:AfterRecurse"]}
{"id": "C15", "title": "Components are reported callees first", "statement": "When a component is reported, every node reachable from it is in it or in a component reported earlier.", "quantifier": "every finite graph and every search order", "why_tests_cant": "Unbounded graphs and histories.", "anchors": ["analysis/scc/strongly_connected_components.go:EndVisit"]}
{"id": "C16", "title": "The SCC state never panics when the protocol is followed", "statement": "In every depth first search following the documented protocol, Visit never meets an already visited node, EndVisit always finds its node on the stack, and HandleEdge/AfterRecurse always find their vertices.", "quantifier": "every finite graph and every search order", "why_tests_cant": "Panic freedom over all histories.", "anchors": ["analysis/scc/strongly_connected_components.go:Visit", "analysis/scc/strongly_connected_components.go:EndVisit"]}
{"id": "C17", "title": "A function's codes are its own codes plus those of everything it transitively calls", "statement": "For same-package calls without remove annotations, the codes found for a function are exactly the union of the locally originating codes of all functions reachable from it in the call graph.", "quantifier": "every finite call graph including arbitrary recursion", "why_tests_cant": "All graphs, all recursion patterns.", "anchors": ["analysis/analyse.go:findErrorCodesInFunc", "analysis/analyse.go:findErrorCodesFromFunctionCall", "analysis/analyse.go:unifyAnalysisResultForComponent"]}
{"id": "C18", "title": "Mutually recursive functions get one common code set", "statement": "All functions on a common recursion cycle end with the same set: the union of the codes of all of them.", "quantifier": "every finite call graph", "why_tests_cant": "All cycle shapes.", "anchors": ["analysis/analyse.go:unifyAnalysisResultForComponent", "USERGUIDE.md:Recursive calls"]}
{"id": "C19", "title": "Codes found with remove annotations are the least consistent assignment", "statement": "With remove/add annotations, the codes found are exactly those derivable by: own codes; a callee's codes except those removed at that return; sharing within a recursion cycle. Nothing else is found and nothing derivable is lost.", "quantifier": "every finite call graph with annotations", "why_tests_cant": "Least-fixed-point characterisation over all graphs.", "anchors": ["analysis/analyse.go:findErrorCodesInFunc", "analysis/analyse.go:findErrorCodesInFunctionReturnStmts", "analysis/analyse.go:unifyAnalysisResultForComponent"]}
{"id": "C20", "title": "Results do not depend on the order in which functions are analysed", "statement": "The code sets found for functions, and the set of diagnostics, are the same for every order in which the declared functions are visited (a Go map is iterated).", "quantifier": "every program and every iteration order of the claims map", "why_tests_cant": "Map order is random; all orders must agree.", "anchors": ["analysis/analyse.go:runVerify", "analysis/analyse.go:findErrorCodesInLambdaAssignment"]}
{"id": "C21", "title": "The analysis terminates", "statement": "The analysis of every package terminates, whatever recursion, variable cycles or nesting occur.", "quantifier": "every program", "why_tests_cant": "Termination is not testable.", "anchors": ["analysis/analyse.go:findErrorCodesInFunc", "analysis/taint_spread.go:findSpread", "analysis/interfaces_collect.go:embeddingInterfaceDFS"]}
{"id": "C22", "title": "The analyzer never crashes on code that compiles", "statement": "No panic is raised while analysing a type-correct package.", "quantifier": "every type-correct program", "why_tests_cant": "Panic freedom over all programs.", "anchors": ["analysis/analyse.go:findErrorCodesInLambdaAssignment", "analysis/analyse.go:findErrorCodesFromIdentTaint", "analysis/interfaces_verify.go:findConversionsInCallExpr", "analysis/interfaces_verify.go:findConversionsInReturnStmt", "analysis/extract_error_code.go:extractErrorCodeFromConstructorCall"]}
{"id": "C23", "title": "Variable tracking finds exactly the expressions that can flow into a variable", "statement": "Following a variable yields exactly the non-variable expressions assigned (by declaration, assignment or destructuring, also inside closures) to it or to any variable transitively assigned to it, and reports exactly the transitively assigned variables that are not local.", "quantifier": "every function body, every alias chain including cycles", "why_tests_cant": "Transitive closure over unbounded bodies.", "anchors": ["analysis/taint_spread.go:findSpread", "analysis/taint_spread.go:processAssignedExpr", "analysis/taint_spread.go:findValueForIdentInValueSpec", "analysis/taint_spread.go:blockParams"]}
{"id": "C24", "title": "Silence means truth: every code returned at run time is among the found codes", "statement": "If the analysis emits no diagnostic for a package, then whenever one of its declared functions returns an error at run time, that error's code is empty or declared by the function.", "quantifier": "every program of the supported language fragment and every execution", "why_tests_cant": "Soundness over all programs and executions.", "anchors": ["analysis/analyse.go:runVerify", "analysis/analyse.go:findErrorCodesInExpression", "README.md:In Brief"]}
{"id": "C25", "title": "Calls are trusted across packages and checked within a package", "statement": "A call to a function of another package (or an interface method) with declared codes contributes exactly the declared codes; a call to one without a declaration contributes nothing and is reported; a call within the package contributes the codes actually found in the callee, whatever it declares.", "quantifier": "every call expression and every callee", "why_tests_cant": "All facts and all callee bodies.", "anchors": ["analysis/analyse.go:findErrorCodesFromFunctionCall", "analysis/analyse.go:exportErrorCodeFacts"]}
{"id": "C26", "title": "Error constructor calls contribute exactly the argument at the declared parameter", "statement": "For a function declaring an error code parameter, a call contributes the constant passed at the position of exactly that parameter; the position recorded at the declaration and the position used inside the body and at call sites agree for every parameter list.", "quantifier": "every parameter list (grouped, blank and unnamed parameters) and every call", "why_tests_cant": "All parameter list shapes.", "anchors": ["analysis/analyse.go:findErrorCodeParamIdent", "analysis/extract_error_code.go:getParamPosition", "analysis/extract_error_code.go:getParamIdent", "analysis/extract_error_code.go:extractErrorCodeFromConstructorCall"]}
{"id": "C27", "title": "Every well-formed constant is accepted as an error code, every other non-empty constant is reported", "statement": "When a constant string is used as an error code it is collected iff it is a well-formed code; the empty string is allowed and contributes nothing; any other constant is reported and contributes nothing.", "quantifier": "every constant string of any length", "why_tests_cant": "Length-dependent behaviour (constant printing shortens long strings) is outside any small test.", "anchors": ["analysis/extract_error_code.go:getErrorCodeFromConstant", "analysis/extract_error_code.go:extractErrorCodeFromStringExpression"]}
{"id": "C28", "title": "Keyed and positional error literals are read alike", "statement": "For every struct type and error code field, a positional literal and the corresponding keyed literal (in any key order) give the same code expression; an absent field gives none.", "quantifier": "every struct field list (with embedded and grouped fields) and every literal", "why_tests_cant": "All struct shapes and key orders.", "anchors": ["analysis/extract_error_code.go:findFieldInitExpression", "analysis/tag_error_types.go:getFieldPosition"]}
{"id": "C29", "title": "The recorded codes and field of an error type cover every result of its Code method", "statement": "If tagging an error type reports nothing, every string its Code() method can return at run time is empty, one of the recorded constant codes, or the current value of the recorded field.", "quantifier": "every Code method body in the supported fragment and every execution", "why_tests_cant": "All bodies and executions.", "anchors": ["analysis/tag_error_types.go:analyseCodeMethod", "analysis/tag_error_types.go:analyseReturnedExpression", "analysis/tag_error_types.go:analyseReturnedIdentTaint"]}
{"id": "C30", "title": "Codes assigned to the code field of a returned error are found", "statement": "Every constant assigned to the error code field of a variable whose value may be returned is among the found codes (or reported if malformed or not constant).", "quantifier": "every function body and every position of the assignment", "why_tests_cant": "Assignments can occur at any nesting depth.", "anchors": ["analysis/analyse.go:findCodesAssignedToErrorCodeField", "analysis/analyse.go:findCodesAssignedToErrorCodeFieldInAssignment"]}
{"id": "C31", "title": "An implementation is accepted for an error interface iff each method's codes are a subset", "statement": "Using a value as an error interface is reported for a method if and only if that method of the value's type has a code not declared by the interface, and the report lists exactly those codes; nil and identical types are never reported.", "quantifier": "every interface, every implementing type, every code assignment", "why_tests_cant": "All sets and method tables.", "anchors": ["analysis/interfaces_verify.go:checkIfTypeIsValidSubtypeForInterface"]}
{"id": "C32", "title": "Interface acceptance is transitive", "statement": "If a type is accepted for interface I and I is accepted for interface J then the type's methods only have codes declared by J: passing values through intermediate interfaces cannot smuggle codes.", "quantifier": "every chain of conversions", "why_tests_cant": "Chains of any length.", "anchors": ["analysis/interfaces_verify.go:checkIfTypeIsValidSubtypeForInterface"]}
{"id": "C33", "title": "Embedding interfaces carry all embedded error methods with their codes", "statement": "After collection, an interface records every error method of itself and of all (transitively) embedded local interfaces; a mismatch diagnostic is emitted iff two equally named methods have different code sets; when none is emitted the outcome does not depend on the visiting order.", "quantifier": "every embedding graph and visiting order", "why_tests_cant": "All graphs and orders.", "anchors": ["analysis/interfaces_collect.go:findErrorReturningEmbeddingInterfaces", "analysis/interfaces_collect.go:embeddingInterfaceDFS", "analysis/interfaces_collect.go:addEmbeddedInterfaceErrorMethods"]}
{"id": "C34", "title": "Every implicit conversion position is checked", "statement": "In calls (including variadic ones), returns, assignments and composite literals, each (target type, expression) pair where the target is an error interface is checked, with the right pairing of expressions and target types.", "quantifier": "every argument list, result list, literal", "why_tests_cant": "All arities.", "anchors": ["analysis/interfaces_verify.go:findConversionsInCallExpr", "analysis/interfaces_verify.go:findConversionsInReturnStmt", "analysis/interfaces_verify.go:findConversionsInAssignStmt", "analysis/interfaces_verify.go:findConversionsInStructLit", "analysis/interfaces_verify.go:findConversionsInCompositeValues"]}
{"id": "C35", "title": "Checking is opt-in, and -strict only adds reports for exported functions", "statement": "A function without declaration never gets a mismatch report; the strict flag adds exactly one report per exported error-returning function without declaration (except Cause methods of error types) and changes nothing else.", "quantifier": "every package, both flag values", "why_tests_cant": "All packages.", "anchors": ["analysis/analyse.go:findClaimedErrorCodes", "USERGUIDE.md:-strict"]}
{"id": "C36", "title": "Misplaced error results are reported exactly", "statement": "A function is analysed iff its last result implements error; otherwise each result that implements error is reported.", "quantifier": "every result list", "why_tests_cant": "All result lists.", "anchors": ["analysis/analyse.go:checkFunctionReturnsError"]}
{"id": "C37", "title": "Each function body is analysed at most once per run", "statement": "Diagnostics arising inside a function body are emitted at most once per run, however many callers it has: a body is entered at most once.", "quantifier": "every call graph and order", "why_tests_cant": "All histories.", "anchors": ["analysis/analyse.go:findErrorCodesInFunc", "analysis/analyse.go:findErrorCodesFromFunctionCall", "analysis/analyse.go:runVerify"]}
{"id": "C38", "title": "Exported facts are the declared codes", "statement": "After a run, the codes importing packages see for a function are exactly the ones it declares (not the found ones), for every function with a declaration and for no other function.", "quantifier": "every package", "why_tests_cant": "All packages.", "anchors": ["analysis/analyse.go:exportErrorCodeFacts", "analysis/analyse.go:exportErrorCodeFacts"]}
{"id": "C39", "title": "Only well-formed codes are ever found", "statement": "Every code in a found set, hence every code listed in any diagnostic, is well-formed, provided imported facts are.", "quantifier": "every program", "why_tests_cant": "Invariant over all analysis paths.", "anchors": ["analysis/extract_error_code.go:getErrorCodeFromConstant", "analysis/analyse.go:findErrorCodesInFunc"]}
{"id": "C40", "title": "Own-scope check for returned variables", "statement": "A returned variable is accepted as local iff it is nil or declared inside the function's results or body; parameters, receivers, globals and variables of enclosing functions are reported.", "quantifier": "every function and every identifier position", "why_tests_cant": "All positions.", "anchors": ["analysis/analyse.go:isIdentOriginOutsideFunctionScope"]}
{"id": "C41", "title": "Declarations travel between packages unchanged", "statement": "When all packages of a program are analysed (imported ones first), whatever a package knows about a function, type or interface of another package is exactly what that other package recorded for it, however many packages are in between; every package that can refer to it by its imports knows it; nothing is known about other objects; and what is recorded for a package's functions does not depend on other packages, their order or -strict.", "quantifier": "every number of packages, every acyclic import graph, every package, every visible object, every map order", "why_tests_cant": "Facts pass through arbitrarily long import chains; every chain and every intermediate package has to pass them on unchanged.", "anchors": ["analysis/analyse.go:Analyzer", "analysis/analyse.go:runVerify", "analysis/analyse.go:exportErrorCodeFacts", "analysis/interfaces_collect.go:exportInterfaceFacts", "cmd/go-serum-analyzer/main.go"]}
{"id": "C42", "title": "Accepted programs return only declared codes, across packages and interfaces", "statement": "If the analyzer reports nothing for any package of a program, then whenever a function with a declaration is executed - calling functions of other packages and methods of values held in interface variables, to any depth - and returns an error, every code of it is empty, declared for the function, or the argument of its error code parameter.", "quantifier": "every program of any number of packages, every execution, every depth of calls, every chain of conversions between interfaces", "why_tests_cant": "Depends on all callees in all packages, and on every value that can ever get into an interface variable.", "anchors": ["analysis/analyse.go:runVerify", "analysis/analyse.go:findErrorCodesFromFunctionCall", "analysis/interfaces_verify.go:checkIfTypeIsValidSubtypeForInterface", "analysis/interfaces_collect.go:findErrorReturningInterfaces"]}
{"id": "C43", "title": "Accepted programs return only declared codes in every execution, with shared and changing errors", "statement": "If the analyzer reports nothing for any package of a program, then in every execution of it - step by step, with errors that are shared by variables of several functions and changed through any of them, function values that keep variables, functions executed concurrently - whenever a function with a declaration returns an error, every code which the error has at that moment is empty, declared for the function, or the argument of its error code parameter.", "quantifier": "every program, every execution of any length, every interleaving, every aliasing of errors", "why_tests_cant": "Errors are shared mutable objects: what is returned depends on the order of all stores by all functions being executed.", "anchors": ["analysis/analyse.go:runVerify", "analysis/analyse.go:findErrorCodesInFunc", "analysis/analyse.go:findErrorCodesFromIdentTaint", "analysis/analyse.go:findCodesAssignedToErrorCodeField", "analysis/taint_spread.go"]}
{"id": "C44", "title": "Reported codes are never made up", "statement": "Whatever the program (recursion, function literals calling back, any order): every code reported as missing from a declaration is a code that the function can really pass on according to the bodies it reaches, and is not declared; every code reported as unused is declared and does not come out of the function's own body; a code that comes out of the body itself and is not declared is always reported.", "quantifier": "every program, every call graph, every order in which functions are analysed", "why_tests_cant": "The results of functions in recursion cycles are merged in an order that depends on the map iteration; no finite set of graphs covers it.", "anchors": ["analysis/analyse.go:findErrorCodesInFunc", "analysis/analyse.go:reportIfCodesDoNotMatch", "analysis/scc/strongly_connected_components.go"]}
{"id": "C45", "title": "What is shown can be read back", "statement": "The text of a mismatch report determines the function, the missing and the unused codes; the text of a report about a conversion determines the interface, the method and the codes; the text of an exported fact determines the codes, the parameter position, or the error type's field and codes. Showing a fact does not change what it says.", "quantifier": "every set of well-formed codes, every name, every position, every iteration order; every pair of runs on any packages", "why_tests_cant": "Two different findings printed alike would need a search over all pairs of code sets and names.", "anchors": ["analysis/analyse.go:checkIfErrorCodesMatch", "analysis/analyse.go:reportIfCodesDoNotMatch", "analysis/analyse.go:ErrorCodes.String", "analysis/analyse.go:ErrorConstructor.String", "analysis/tag_error_types.go:ErrorType.String", "analysis/interfaces_verify.go:checkIfTypeIsValidSubtypeForInterface", "analysis/set_operations.go:CodeSet.String"]}
{"id": "C46", "title": "An error literal contributes exactly its type's codes and the code written for its field", "statement": "An expression T{...} or &T{...} of a type with a Code() string method, on the type or on its pointer, contributes exactly the constant codes recorded for the type and the well-formed constant (of at most 70 bytes, the limit in C27) written for its error code field; it is reported iff that field is given something other than such a constant, the empty string or the declared code parameter. A type without a Code method, or without recorded error type, contributes nothing and is reported.", "quantifier": "every error type, every literal of it, every constant", "why_tests_cant": "All types, literals and texts.", "anchors": ["analysis/extract_error_code.go:extractErrorCodesFromAffector", "analysis/extract_error_code.go:extractFieldErrorCode", "analysis/extract_error_code.go:extractErrorCodeFromStringExpression", "analysis/analyse.go:checkErrorTypeHasLegibleCode"]}
{"id": "C47", "title": "Following the reports fixes them", "statement": "If the doc comments of reported functions are changed as their mismatch reports say (add the codes listed as missing, remove those listed as unused, keep the parameter), the next run reports nothing about these declarations, and exactly the same as before about all others. Such comments can always be written, so that after one round nothing is reported about declarations.", "quantifier": "every package, every set of reports, every choice of which to follow, every order of both runs", "why_tests_cant": "Whether correcting one declaration makes another one wrong depends on the whole call graph and on both map orders; a test fixes one package.", "anchors": ["analysis/analyse.go:runVerify", "analysis/analyse.go:reportIfCodesDoNotMatch", "analysis/analyse.go:checkIfErrorCodesMatch", "analysis/analyse.go:findClaimedErrorCodes", "analysis/find_error_docs.go"]}
{"id": "C48", "title": "Edits are local", "statement": "If function bodies are changed, but none that a declared function f calls directly or indirectly (nor its own), then the report about the declaration of f, and the reports in its body and in the bodies it calls, are the same as before. If no methods are changed, also the error types found and the reports about them are.", "quantifier": "every package, every change of any number of bodies, every order of both runs", "why_tests_cant": "Ranges over all pairs of packages that differ in arbitrary bodies; the search over functions shares caches between all of them.", "anchors": ["analysis/analyse.go:runVerify", "analysis/analyse.go:findErrorCodesInFunc", "analysis/scc/strongly_connected_components.go", "analysis/tag_error_types.go:findAndTagErrorTypes"]}
{"id": "C49", "title": "Analysing a program again", "statement": "If all packages of a program are analysed twice, each time in any order in which imported packages come first (or concurrently), with facts passed on from imported packages, then each package has the same facts and the same diagnostics, the same number of times each, in both analyses.", "quantifier": "every program of any number of packages, every pair of package orders, every iteration order of every map in every package of both analyses", "why_tests_cant": "Ranges over pairs of histories of runs; a difference in one package would have to be excluded for all packages that depend on it.", "anchors": ["analysis/analyse.go:runVerify", "analysis/analyse.go:exportErrorCodeFacts", "analysis/tag_error_types.go:findAndTagErrorTypes", "analysis/interfaces_collect.go"]}
{"id": "C50", "title": "Changed declarations in dependencies", "statement": "If functions and methods of imported packages declare other codes than before, then for each declared function of the importing package the codes reported as missing or unused change only by codes added to or removed from declarations of imported packages; if codes are only added, no code stops being reported as missing and none is newly reported as unused. The same holds for the codes reported where values are used as error interfaces. All reports about types, interfaces, signatures, doc comments and in bodies stay the same, and the analysis panics if and only if it did before.", "quantifier": "every package, every set of imported declarations before and after, every order of both runs", "why_tests_cant": "Ranges over all pairs of imported fact tables; a test fixes one dependency and one change of it.", "anchors": ["analysis/analyse.go:runVerify", "analysis/analyse.go:findErrorCodesFromFunctionCall", "analysis/analyse.go:reportIfCodesDoNotMatch", "analysis/interfaces_verify.go:findConversionsToErrorReturningInterfaces"]}
{"id": "C51", "title": "Declarations are read from comments as they stand in the source", "statement": "The codes recorded for a function, an error constructor's parameter and the codes of an interface method are exactly those written in its doc comment, in whatever style the comment is written: // with or without a space, /* */, mixed; with directives such as //go:noinline in between; with any indentation and trailing white space; with any number of blank lines where one is required. A line of a declaration or an annotation is never taken for a directive. The same holds for annotations of return statements, and each statement gets the comments of its own file.", "quantifier": "every comment group, every list of lines, every mixture of comment styles, every number of files", "why_tests_cant": "The layout of comments varies without bound.", "anchors": ["analysis/analyse.go:findErrorDocs", "analysis/analyse.go:createCommentMap", "analysis/annotation.go:getReturnStmtAnnotations", "analysis/find_error_docs.go"]}
{"id": "C52", "title": "Reports about error types are exact", "statement": "For every declared type with a Code method, the analyser reports exactly: each constant the method can return that is neither empty nor a well-formed code, each selected field of the receiver other than the one taken for the code field, each other returned expression that is no constant, field or local variable, each returned identifier that is no variable of the method, each destructuring assignment to such a variable, a code field the type does not have, bad assignments to the code field in its methods, a type without any codes, and a Code method that is not declared in the package. A type is recorded as error type if and only if it has a declared Code method and a code or a code field, whether or not something is reported, and then with exactly its codes.", "quantifier": "every type, every Code method, every set of methods of the type, every package and map order", "why_tests_cant": "Ranges over all method bodies and all combinations of problems in one type; tests show single problems.", "anchors": ["analysis/tag_error_types.go:findAndTagErrorTypes", "analysis/tag_error_types.go:tagErrorType", "analysis/tag_error_types.go:getErrorTypeForError", "analysis/extract_error_code.go"]}
{"id": "C53", "title": "The order and place of declarations do not matter", "statement": "Moving declarations within a file or between the files of a package (so that every object stays inside of the functions it was declared in) without changing their order changes nothing in the result. Reordering functions, methods, types, interfaces and variables does not change the exported facts, nor which diagnostics are reported and how often, nor whether the analyser panics; except that of several functions of one name (_ or init) only the last is analysed.", "quantifier": "every package, every permutation of its declarations and every assignment of positions, every map order of both runs", "why_tests_cant": "Ranges over all permutations of all packages.", "anchors": ["analysis/analyse.go:runVerify", "analysis/analyse.go:isIdentOriginOutsideFunctionScope", "analysis/function_lookup.go:collectFunctions", "analysis/interfaces_verify.go", "analysis/interfaces_collect.go", "analysis/tag_error_types.go:findAndTagErrorTypes"]}
{"id": "C54", "title": "The verdict on the project's own test packages is the expected one in every order", "statement": "For each package in analysis/testdata (the 20 analysed by the test suite and those they import), analysed in strict mode after the packages it imports, the run ends and reports exactly the expected diagnostics, each as often as expected, and exports exactly the expected facts, whatever orders Go picks for iterating over maps, in this run and in those over the imported packages. More generally, whether the result of a run over any package depends on these orders can be checked after a single run: if the check succeeds, every other run has the same result.", "quantifier": "every order of iteration of every map in every run over the package and the packages it imports; for the check: every package", "why_tests_cant": "The test suite runs each package once, in the one order that the Go runtime happens to pick.", "anchors": ["analysis/analyse.go:runVerify", "analysis/testdata/src", "analysis/analyse_test.go:TestVerifyAnalyzer", "analysis/analyse_test.go:TestNotImplemented"]}
{"id": "C55", "title": "Declarations can be adopted function by function", "statement": "If the doc comments of some functions are changed (declarations added, removed or corrected, the error code parameters staying the same), the next run finds the same error types, interfaces and error constructors, records the same codes for all functions whose comments are unchanged, and makes the same reports about types, interfaces, signatures, about the comments of unchanged functions, and in all bodies analysed for a declaration both times; whether a function agrees with its own declaration never depends on the declarations of other functions of the package. If declarations are only added, no report in a body analysed before disappears or appears. Without -strict, a package whose functions have no declarations gets no reports about declarations, and nothing is recorded for its functions.", "quantifier": "every package, every change of any number of doc comments, every order of both runs", "why_tests_cant": "Ranges over all pairs of packages that differ in arbitrary doc comments, and over the orders of both runs.", "anchors": ["README.md:Adopting", "analysis/analyse.go:runVerify", "analysis/analyse.go:findClaimedErrorCodes", "analysis/analyse.go:exportErrorCodeFacts", "analysis/analyse.go:reportIfCodesDoNotMatch"]}
{"id": "C56", "title": "A comment belongs to the statement it stands at", "statement": "Each comment group of a file is attached to exactly one node, and attaching comments never fails. A comment on lines of its own directly above a return statement (no empty line below it, nothing else on its first line) is attached to that statement, and so is a comment behind it, on the line on which it ends or on the next line and followed by an empty line, unless a larger statement or declaration ends there too. No comment is attached to a statement that does not stand at it in one of these ways: right before it with no node in between, on its last line, on the line below it and followed by an empty line, or behind the last node of the file. So an annotation above a return statement is that statement's annotation, in whichever file of the package.", "quantifier": "every file: every list of nodes and comments, every layout of lines, every number of files", "why_tests_cant": "The layout of source files varies without bound; the test packages contain a handful of layouts.", "anchors": ["analysis/analyse.go:createCommentMap", "analysis/annotation.go:getReturnStmtAnnotations"]}
{"id": "C57", "title": "The text of a diagnostic identifies the problem", "statement": "Whatever names and codes are inserted into messages: two diagnostics that are shown with the same text, in the same run or in runs over different packages, have the same wording and the same inserted values; no name, however it is chosen, makes one message look like another. Within a phase, different problems have different messages. A code that is refused is reported with its reason: not a string, too long to be shown completely, or not well-formed.", "quantifier": "every diagnostic of every run over every package, every function, variable, parameter, type and package name, every set of codes, every notion of printable characters", "why_tests_cant": "Names and codes are arbitrary texts; the test suite matches some fifty messages with a handful of names against regular expressions.", "anchors": ["analysis/analyse.go", "analysis/extract_error_code.go:getErrorCodeFromConstant", "analysis/tag_error_types.go", "analysis/interfaces_collect.go", "analysis/interfaces_verify.go", "analysis/annotation.go", "analysis/find_error_docs.go"]}
{"id": "C58", "title": "Reports about function bodies are exact", "statement": "A function whose body is analysed gets a report for each problem of the body, at the place of the problem and with the names of what is involved, and no other reports. The problems are: malformed annotations of return statements; returned errors that are neither calls, variables, literals nor fields (with a wording for each kind of expression); returned variables from outside the function; errors that are not the last result of a call; literals, conversions, field assignments and constructor arguments whose code is no constant or no valid code; parameters used as codes without being declared; calls of functions of other packages, of dot-imported names, of methods and of expressions about which nothing is known; calls of variables holding a function from outside, from a destructuring assignment, from an unsupported expression or an error constructor; and code parameters that are reassigned in these ways.", "quantifier": "every function body, every data flow between its variables, every nesting of expressions, every run", "why_tests_cant": "Bodies are programs of any size; the report depends on everything that may flow into a returned value.", "anchors": ["analysis/analyse.go:findErrorCodesInFunc", "analysis/analyse.go:findErrorCodesInExpression", "analysis/analyse.go:findErrorCodesFromFunctionCall", "analysis/analyse.go:findErrorCodesFromAllAssignedLambdas", "analysis/analyse.go:findErrorCodesFromIdentTaint", "analysis/extract_error_code.go:ectractErrorCodesFromConstructor", "analysis/extract_error_code.go", "analysis/taint_spread.go"]}
{"id": "C59", "title": "Names of variables do not matter", "statement": "If variables are renamed - local variables, named results, receivers, parameters of functions and function literals, package-level variables - so that every identifier still refers to the same thing, then the analyzer stops with the same panic, or exports the same facts and reports the same problems at the same places in the same order; only the names of the renamed variables in the texts may differ. Exceptions: a parameter that a comment names as the error code parameter keeps its name and no other parameter of this function gets it, and no variable is called nil (both are needed).", "quantifier": "every package, every renaming of any number of variables, every order of iteration, both modes", "why_tests_cant": "Ranges over all pairs of packages that differ in names, where data flow analyses easily confuse variables that happen to have the same name.", "anchors": ["analysis/analyse.go:runVerify", "analysis/taint_spread.go", "analysis/extract_error_code.go", "analysis/tag_error_types.go:analyseReturnedExpression", "analysis/analyse.go:findErrorCodeParamIdent", "analysis/interfaces_verify.go"]}
{"id": "C60", "title": "Statements that neither return nor assign anything do not matter", "statement": "Removing (or adding) statements anywhere in function bodies and blocks changes nothing, provided they contain no assignment, no return statement and no function literal and convert no value to an interface that may have error methods: logging calls, declarations of unrelated variables, sends, empty loops and conditions. The analyzer stops with the same panic, or exports the same facts and reports the same problems at the same places in the same order.", "quantifier": "every package, every set of such statements at any depth, every order of iteration, both modes", "why_tests_cant": "Ranges over all pairs of packages that differ in such statements; a test can only remove particular ones.", "anchors": ["analysis/analyse.go:runVerify", "analysis/analyse.go:findErrorCodesInFunc", "analysis/taint_spread.go", "analysis/tag_error_types.go", "analysis/interfaces_verify.go"]}
{"id": "C61", "title": "Functions that nobody uses do not matter", "statement": "Removing functions from a package (or adding some) that no other body leads to does not change what is found out about the rest: error types, interfaces, the codes and error constructors recorded for all other functions, the reports about types, interfaces and the signatures and declarations of other functions, the reports in the bodies analysed for them, the comparison of their declarations with their bodies, and the codes reported where values are converted to error interfaces outside of the functions that are gone; and nothing is recorded or reported for the functions that are gone. If the analyzer did not panic on the package before, it does not panic without them.", "quantifier": "every package, every set of plain functions not called from outside the set (with error constructors in it not referred to at all; for conversions, the same for declared functions in it, and what they lead to is also analysed for another declaration), the run with them succeeding, every order of iteration in either run", "why_tests_cant": "Ranges over all packages and all sets of unused functions, and over the order in which each run analyses functions; a test removes one function from one package in one order.", "anchors": ["analysis/analyse.go:runVerify", "analysis/analyse.go:findErrorCodesFromFunctionCall", "analysis/function_lookup.go:collectFunctions", "analysis/extract_error_code.go:extractErrorCodeFromConstructorCall"]}
{"id": "C62", "title": "What a package cannot come across in its imports does not matter", "statement": "A package can come across only a part of what other packages declare: the functions it calls or names, the types of its expressions and their parts, and the methods of these types. If what is known about everything else changes in any way, the analyzer stops with the same panic or reports the same, and records the same facts. So if other packages of a program are replaced by other versions, a package that has not changed gets the same reports and records the same facts about its declarations, provided the new versions have recorded the same for what the package comes across.", "quantifier": "every package, all facts about other packages, all pairs of programs containing the same package, every order of iteration, both modes", "why_tests_cant": "Ranges over all pairs of sets of imported facts; a fact read about the wrong object, or about more objects than intended, shows only for particular pairs.", "anchors": ["analysis/analyse.go:runVerify", "analysis/analyse.go:findErrorCodesFromFunctionCall", "analysis/extract_error_code.go:importErrorConstructorFact", "analysis/interfaces_verify.go:importErrorInterfaceFact", "analysis/tag_error_types.go:getErrorTypeForError"]}
{"id": "C63", "title": "A package gets the same reports whatever is analysed with it", "statement": "Whether a program is analysed as a whole, or only some of its packages with what they import, in whatever order the packages are analysed: each package gets the same reports, and records the same facts for its own declarations and for what it comes across, if its maps are iterated in the same order.", "quantifier": "all pairs of analyses of parts of a program, every order of packages, every package in both, both modes; objects that a package comes across must be known to it by its imports if another package declares them", "why_tests_cant": "Ranges over all programs and all their parts; the test suite always analyses the same sets of packages.", "anchors": ["cmd/go-serum-analyzer/main.go", "analysis/analyse.go:runVerify", "analysis/analyse.go:exportErrorCodeFacts"]}
{"id": "C64", "title": "The codes found in a function body are exact", "statement": "The codes that the analyzer finds for a function body are exactly these: the codes of error literals and conversions (those of the error type, and a constant given for the code field), of called functions (known from imports, declared, or derived from their bodies), of functions held in a called variable, the constants handed to error constructors, constants assigned to the code field of a returned variable or to the code parameter, and the codes that annotations of return statements state or add; for every expression that can flow into the last result of a return statement, minus what the annotation of that statement removes. What is reported about a declaration is the difference between the declared codes and the least codes derived in this way from the texts of the functions that can be reached.", "quantifier": "every function body that does not make the analyzer panic, every environment and every assignment of codes to the other functions; every package and schedule for the reports. Partial: annotations that remove codes of a variable which another return statement may return too (there the order of statements matters); for reports, no reachable annotation removes codes and no reachable literal calls back", "why_tests_cant": "Ranges over all bodies, with any nesting of literals, assignments and returns, and all graphs of calls; a code that is missed or invented shows only for one particular flow.", "anchors": ["analysis/analyse.go:findErrorCodesInFunc", "analysis/analyse.go:findErrorCodesFromFunctionCall", "analysis/extract_error_code.go", "analysis/tag_error_types.go:getErrorTypeForError"]}
