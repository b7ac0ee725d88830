{
 "claims": [
  {
   "property": "C01",
   "status": "proved",
   "theorems": [
    "Serum.Props.CodeFormat.valid_iff_pattern",
    "Serum.Props.CodeFormat.valid_ascii"
   ],
   "note": ""
  },
  {
   "property": "C02",
   "status": "proved",
   "theorems": [
    "Serum.Props.ErrorDocs.parse_iff_grammar",
    "Serum.Props.ErrorDocs.parse_fails_iff",
    "Serum.Props.ErrorDocs.grammar_unambiguous"
   ],
   "note": ""
  },
  {
   "property": "C03",
   "status": "proved",
   "theorems": [
    "Serum.Props.ErrorDocs.write_read"
   ],
   "note": ""
  },
  {
   "property": "C04",
   "status": "proved",
   "theorems": [
    "Serum.Props.ErrorDocs.prose_before",
    "Serum.Props.ErrorDocs.prose_after_block",
    "Serum.Props.ErrorDocs.prose_after_none",
    "Serum.Props.ErrorDocs.text_inside_block",
    "Serum.Props.ErrorDocs.indentation",
    "Serum.Props.Space.trim_exact",
    "Serum.Props.Space.blank_exact",
    "Serum.Props.Space.split_exact"
   ],
   "note": ""
  },
  {
   "property": "C05",
   "status": "proved",
   "theorems": [
    "Serum.Props.ErrorDocs.no_blank_line_refused",
    "Serum.Props.ErrorDocs.bad_entry_refused",
    "Serum.Props.ErrorDocs.entry_without_dashes_refused",
    "Serum.Props.ErrorDocs.malformed_code_refused",
    "Serum.Props.ErrorDocs.blank_param_refused",
    "Serum.Props.ErrorDocs.second_param_refused",
    "Serum.Props.ErrorDocs.repeated_indicator_refused"
   ],
   "note": ""
  },
  {
   "property": "C06",
   "status": "proved",
   "theorems": [
    "Serum.Props.ErrorDocs.none_iff",
    "Serum.Props.ErrorDocs.none_accepted"
   ],
   "note": ""
  },
  {
   "property": "C07",
   "status": "proved",
   "theorems": [
    "Serum.Props.ErrorDocs.declared_codes_wellFormed",
    "Serum.Props.Annotations.annotation_codes_wellFormed"
   ],
   "note": ""
  },
  {
   "property": "C08",
   "status": "proved",
   "theorems": [
    "Serum.Props.Annotations.no_indicator",
    "Serum.Props.Annotations.accepted_iff",
    "Serum.Props.Annotations.malformed_reported",
    "Serum.Props.Annotations.several_reported",
    "Serum.Props.Annotations.meaning_unique",
    "Serum.Props.Space.trim_exact"
   ],
   "note": ""
  },
  {
   "property": "C09",
   "status": "proved",
   "theorems": [
    "Serum.Props.Annotations.effect",
    "Serum.Props.Annotations.removed_and_added"
   ],
   "note": ""
  },
  {
   "property": "C10",
   "status": "partial",
   "theorems": [
    "Serum.Props.Bodies.returns_independent_partial",
    "Serum.Props.Bodies.annotation_leaks"
   ],
   "note": "false of the code when an annotated return shares a variable with a later plain return (annotation_leaks)"
  },
  {
   "property": "C11",
   "status": "proved",
   "theorems": [
    "Serum.Props.CodeSets.sliceToSet_spec",
    "Serum.Props.CodeSets.slice_spec",
    "Serum.Props.CodeSets.add_spec",
    "Serum.Props.CodeSets.add_nil_panics",
    "Serum.Props.CodeSets.union_spec",
    "Serum.Props.CodeSets.difference_spec",
    "Serum.Props.CodeSets.union_order_independent",
    "Serum.Props.CodeSets.value_model_agrees"
   ],
   "note": ""
  },
  {
   "property": "C12",
   "status": "proved",
   "theorems": [
    "Serum.Props.Reports.mismatch_exact",
    "Serum.Props.Run.mismatches_exact_partial"
   ],
   "note": ""
  },
  {
   "property": "C13",
   "status": "proved",
   "theorems": [
    "Serum.Props.Reports.mismatch_deterministic",
    "Serum.Props.Reports.fact_text_deterministic",
    "Serum.Props.Reports.interface_text_deterministic",
    "Serum.Props.Reports.interface_report_deterministic"
   ],
   "note": ""
  },
  {
   "property": "C14",
   "status": "proved",
   "theorems": [
    "Serum.Props.Components.components_exact"
   ],
   "note": ""
  },
  {
   "property": "C15",
   "status": "proved",
   "theorems": [
    "Serum.Props.Components.callees_first"
   ],
   "note": ""
  },
  {
   "property": "C16",
   "status": "proved",
   "theorems": [
    "Serum.Props.Components.never_panics",
    "Serum.Props.Components.components_exact"
   ],
   "note": ""
  },
  {
   "property": "C17",
   "status": "partial",
   "theorems": [
    "Serum.Props.CallGraph.transitive_codes_partial",
    "Serum.Props.CallGraph.found_reachable",
    "Serum.Props.Run.mismatches_exact_partial"
   ],
   "note": "exact for every function that does not reach a literal calling back its visitor (Settled; order_matters shows why), whatever the rest of the program; for the others only that nothing is made up (found_reachable)"
  },
  {
   "property": "C18",
   "status": "partial",
   "theorems": [
    "Serum.Props.CallGraph.cycle_shares_codes_partial"
   ],
   "note": "for Settled functions, as C17"
  },
  {
   "property": "C19",
   "status": "partial",
   "theorems": [
    "Serum.Props.CallGraph.codes_are_least_partial",
    "Serum.Props.CallGraph.codesOf_least_consistent",
    "Serum.Props.CallGraph.cache_is_exact_partial",
    "Serum.Props.CallGraph.found_derivable",
    "Serum.Props.CallGraph.own_found",
    "Serum.Props.CallGraph.found_iff_reached",
    "Serum.Props.CallGraph.partly_settled"
   ],
   "note": "for Settled functions, as C17; found_derivable, own_found and found_iff_reached hold for all"
  },
  {
   "property": "C20",
   "status": "partial",
   "theorems": [
    "Serum.Props.CallGraph.order_independent_partial",
    "Serum.Props.CallGraph.order_matters",
    "Serum.Props.CallGraph.success_order_independent",
    "Serum.Props.Interfaces.order_independent_partial",
    "Serum.Props.Conversions.order_independent_partial",
    "Serum.Props.Run.order_independent_partial",
    "Serum.Props.Messages.shown_perm",
    "Serum.Props.Messages.shown_order_independent_partial",
    "Serum.Props.Run.Callback.order_matters",
    "Serum.Props.Run.facts_order_independent_partial",
    "Serum.Props.Run.success_order_independent_partial",
    "Serum.Props.Run.field_order_independent",
    "Serum.Props.Run.all_orders_independent_partial"
   ],
   "note": "false of the code for a literal held in a local variable that calls back its enclosing function's caller (CallGraph.order_matters, and for a whole package Run.Callback.order_matters: silent in one order, a report in the other); proved for all other programs"
  },
  {
   "property": "C21",
   "status": "proved",
   "theorems": [
    "Serum.Props.Bodies.analysis_terminates",
    "Serum.Props.CallGraph.terminates",
    "Serum.Props.ErrorTypes.tagging_terminates",
    "Serum.Props.Run.run_terminates",
    "Serum.Props.Run.bodies_terminate",
    "Serum.Props.Interfaces.search_ends",
    "Serum.Props.Interfaces.declarations_end"
   ],
   "note": ""
  },
  {
   "property": "C22",
   "status": "partial",
   "theorems": [
    "Serum.Props.Crash.body_exact",
    "Serum.Props.Crash.search_exact",
    "Serum.Props.Crash.search_succeeds_partial",
    "Serum.Props.CallGraph.succeeds_iff",
    "Serum.Props.CallGraph.literal_called_twice_panics",
    "Serum.Props.Crash.map_index_panics",
    "Serum.Props.Crash.named_function_type_panics",
    "Serum.Props.Crash.two_fields_panic",
    "Serum.Props.Crash.bodiless_panics",
    "Serum.Props.Crash.callee_panics",
    "Serum.Props.Crash.multi_value_argument_panics",
    "Serum.Props.Run.declarations_read",
    "Serum.Props.Run.run_succeeds_iff",
    "Serum.Props.Run.run_panics_exact",
    "Serum.Props.Run.run_succeeds_partial",
    "Serum.Props.Run.values_uncalled",
    "Serum.Props.Run.broken_panics"
   ],
   "note": "false of the code in general (the *_panics witnesses); when it panics is characterised exactly: for one body (body_exact, in terms of the syntax), for the search (search_exact) and for a whole run (declarations_read, run_succeeds_iff, run_panics_exact)"
  },
  {
   "property": "C23",
   "status": "partial",
   "theorems": [
    "Serum.Props.Tracking.tracking_exact_partial",
    "Serum.Props.Tracking.nested_parameter_accepted",
    "Serum.Check.fine_sound"
   ],
   "note": "false of the code for a nested literal's parameter reached through an alias (nested_parameter_accepted); proved for bodies meeting ScopeOk"
  },
  {
   "property": "C24",
   "status": "partial",
   "theorems": [
    "Serum.Props.Soundness.silent_run_sound_partial",
    "Serum.Props.Soundness.silent_run_declared_partial",
    "Serum.Props.Soundness.range_variable_missed",
    "Serum.Props.Soundness.errors_as_missed",
    "Serum.Props.Soundness.aliased_store_missed",
    "Serum.Props.Soundness.deref_store_missed",
    "Serum.Props.Soundness.zero_value_missed",
    "Serum.Props.Soundness.deferred_missed",
    "Serum.Props.Soundness.conversion_missed",
    "Serum.Props.Soundness.foreign_store_missed",
    "Serum.Props.Soundness.range_function_missed",
    "Serum.Props.Soundness.method_expression_missed",
    "Serum.Props.Soundness.failed_assertion_missed",
    "Serum.Props.Run.silent_declared_partial",
    "Serum.Props.Run.Callback.order_matters",
    "Serum.Check.inScope_sound",
    "Serum.Check.silentSound",
    "Serum.Check.returnsOnly",
    "Serum.Testdata.annotation.returnsOnly",
    "Serum.Testdata.docformat.returnsOnly",
    "Serum.Testdata.dotimport.returnsOnly",
    "Serum.Testdata.dotimportInner1.returnsOnly",
    "Serum.Testdata.dotimportInner2.returnsOnly",
    "Serum.Testdata.errorConstructor.returnsOnly",
    "Serum.Testdata.examples.returnsOnly",
    "Serum.Testdata.fieldAssignment.returnsOnly",
    "Serum.Testdata.funcLiteral.returnsOnly",
    "Serum.Testdata.funcLiteralInner.returnsOnly",
    "Serum.Testdata.interfaces.returnsOnly",
    "Serum.Testdata.interfacesInner1.returnsOnly",
    "Serum.Testdata.interfacesInner2.returnsOnly",
    "Serum.Testdata.methods.returnsOnly",
    "Serum.Testdata.multifile.returnsOnly",
    "Serum.Testdata.multipackage.returnsOnly",
    "Serum.Testdata.multipackageInner1.returnsOnly",
    "Serum.Testdata.multipackageInner2.returnsOnly",
    "Serum.Testdata.p001.returnsOnly",
    "Serum.Testdata.recursion.returnsOnly",
    "Serum.Testdata.typeAssertion.returnsOnly",
    "Serum.Testdata.typecast.returnsOnly"
   ],
   "note": "false of the code in general (the *_missed witnesses); proved, against the run time semantics of Spec/Runtime.lean, for the functions described in Spec/Supported.lean that call only such functions. Check.inScope decides a sufficient condition; Testdata.*.returnsOnly are instances for the packages in analysis/testdata, without hypotheses other than that other packages do what they declare"
  },
  {
   "property": "C25",
   "status": "proved",
   "theorems": [
    "Serum.Props.Calls.declared_call",
    "Serum.Props.Calls.undeclared_foreign_call",
    "Serum.Props.Calls.undeclared_dot_import",
    "Serum.Props.Calls.undeclared_method_call",
    "Serum.Props.Calls.local_call",
    "Serum.Props.Calls.calls_in_run"
   ],
   "note": ""
  },
  {
   "property": "C26",
   "status": "partial",
   "theorems": [
    "Serum.Props.Claims.positions_agree",
    "Serum.Props.TypeReports.parameter_at",
    "Serum.Props.TypeReports.getParamPosition_iff",
    "Serum.Props.Extract.constructor_argument",
    "Serum.Props.Extract.constructor_otherwise",
    "Serum.Props.Extract.multi_value_argument_panics",
    "Serum.Props.Run.exported_constructors"
   ],
   "note": "a multi-value argument list makes the analyser panic"
  },
  {
   "property": "C27",
   "status": "partial",
   "theorems": [
    "Serum.Props.Extract.constant_code_partial",
    "Serum.Props.Extract.long_code_refused",
    "Serum.Props.Extract.constant_collected",
    "Serum.Props.Extract.constant_accepted_partial"
   ],
   "note": "false of the code for codes longer than 70 characters (long_code_refused)"
  },
  {
   "property": "C28",
   "status": "proved",
   "theorems": [
    "Serum.Props.Extract.keyed_literal",
    "Serum.Props.Extract.key_order",
    "Serum.Props.Extract.positional_eq_keyed",
    "Serum.Props.Extract.literal_wrapped"
   ],
   "note": ""
  },
  {
   "property": "C29",
   "status": "partial",
   "theorems": [
    "Serum.Props.ErrorTypes.code_method_covered_partial",
    "Serum.Props.ErrorTypes.recorded_exact_partial",
    "Serum.Props.ErrorTypes.receiver_reassigned",
    "Serum.Props.ErrorTypes.deferred_result",
    "Serum.Props.Run.exported_error_types_partial",
    "Serum.Props.Run.code_methods_covered_partial"
   ],
   "note": "false of the code for methods that reassign their receiver or change a named result in a deferred call (witnesses); proved for the remaining fragment"
  },
  {
   "property": "C30",
   "status": "partial",
   "theorems": [
    "Serum.Props.Fields.assigned_codes_partial",
    "Serum.Props.Fields.assigned",
    "Serum.Props.Fields.nested_assignment_missed",
    "Serum.Props.Fields.parenthesised_assignment_missed"
   ],
   "note": "false of the code for assignments nested in a literal on the right of another assignment, and for (err).Field (witnesses)"
  },
  {
   "property": "C31",
   "status": "proved",
   "theorems": [
    "Serum.Props.Conversions.accepted_iff",
    "Serum.Props.Conversions.reports_exact_partial",
    "Serum.Props.Conversions.nil_and_same_accepted",
    "Serum.Props.Conversions.silent_means_acceptable_partial",
    "Serum.Props.Conversions.undeclared_foreign_accepted",
    "Serum.Props.Conversions.reports_derivable",
    "Serum.Props.Conversions.smuggled_reported_partial",
    "Serum.Props.Conversions.smuggled_code_reported_partial",
    "Serum.Props.Run.smuggled_iff_partial",
    "Serum.Props.Run.conversions_exact_partial",
    "Serum.Props.Run.conversion_reported_partial",
    "Serum.Props.Run.conversions_derivable"
   ],
   "note": "accepted_iff is the property for one use; reports_exact_partial extends it to whole packages, for the conversions of C34. A method's codes are the declared ones, else those found in its body; a foreign method without declaration has none (undeclared_foreign_accepted). Methods without declaration whose body leads to a literal calling back (MethodSettled) are excluded from exactness; reports_derivable covers them"
  },
  {
   "property": "C32",
   "status": "partial",
   "theorems": [
    "Serum.Props.Conversions.transitive_partial",
    "Serum.Props.Conversions.chain_partial",
    "Serum.Props.Conversions.not_transitive"
   ],
   "note": "for chains of interfaces which declare the methods concerned; through an interface that does not, codes can be smuggled (not_transitive)"
  },
  {
   "property": "C33",
   "status": "partial",
   "theorems": [
    "Serum.Props.Interfaces.recorded_exact_partial",
    "Serum.Props.Interfaces.mismatch_iff_partial",
    "Serum.Props.Interfaces.order_independent_partial",
    "Serum.Props.Interfaces.search_ends",
    "Serum.Props.Interfaces.declarations_end",
    "Serum.Props.Interfaces.local_type_replaces",
    "Serum.Props.Interfaces.dot_imported_ignored",
    "Serum.Props.Interfaces.mismatches_exact_partial",
    "Serum.Props.Interfaces.mismatches_counted_partial",
    "Serum.Props.Run.interface_reports_counted_partial",
    "Serum.Props.Interfaces.unrecordable_exact",
    "Serum.Props.Run.exported_interfaces_partial",
    "Serum.Props.Run.interfaces_exact_partial",
    "Serum.Props.Run.interface_reports_exact_partial"
   ],
   "note": "for interface names declared once per package: a function-local type of the same name replaces the record (local_type_replaces); dot-imported embedded interfaces are ignored (dot_imported_ignored)"
  },
  {
   "property": "C34",
   "status": "partial",
   "theorems": [
    "Serum.Props.Conversions.positions_exact_partial",
    "Serum.Props.Conversions.package_checked_partial",
    "Serum.Props.Conversions.every_node_visited",
    "Serum.Props.Conversions.no_crash_partial",
    "Serum.Props.Conversions.named_function_type_unchecked",
    "Serum.Props.Conversions.conversion_to_function_type_crashes",
    "Serum.Props.Conversions.spread_crashes",
    "Serum.Props.Conversions.forwarded_results_crash",
    "Serum.Props.Conversions.forwarded_return_crashes",
    "Serum.Props.Conversions.range_over_named_pointer_crashes",
    "Serum.Props.Conversions.literal_of_unnamed_pointer_unchecked",
    "Serum.Props.Conversions.pointer_assertion_checked",
    "Serum.Props.Run.conversions_exact_partial"
   ],
   "note": "exact for all syntax except the forms excluded by Supported, for each of which there is a witness that the analyser goes wrong"
  },
  {
   "property": "C35",
   "status": "proved",
   "theorems": [
    "Serum.Props.Claims.strict_only_adds",
    "Serum.Props.Claims.not_strict_no_report",
    "Serum.Props.Claims.claims_exact",
    "Serum.Props.Run.strict_run",
    "Serum.Props.Run.declaration_reports_exact"
   ],
   "note": ""
  },
  {
   "property": "C36",
   "status": "proved",
   "theorems": [
    "Serum.Props.Claims.misplaced_exact",
    "Serum.Props.Claims.analysed_exact",
    "Serum.Props.Claims.empty_results_panic",
    "Serum.Props.Run.signatures_exact"
   ],
   "note": "functions with an empty parenthesised result list panic (empty_results_panic)"
  },
  {
   "property": "C37",
   "status": "proved",
   "theorems": [
    "Serum.Props.CallGraph.body_once",
    "Serum.Props.Run.bodies_once"
   ],
   "note": ""
  },
  {
   "property": "C38",
   "status": "proved",
   "theorems": [
    "Serum.Props.Claims.exported_codes_are_declared",
    "Serum.Props.Run.exported_codes",
    "Serum.Props.Run.exported_constructors",
    "Serum.Props.Run.exported_interfaces_partial",
    "Serum.Props.Run.exported_error_types_partial",
    "Serum.Props.Run.interfaces_exact_partial",
    "Serum.Props.Run.facts_order_independent_partial"
   ],
   "note": ""
  },
  {
   "property": "C39",
   "status": "proved",
   "theorems": [
    "Serum.Props.Bodies.found_wellFormed",
    "Serum.Props.Bodies.plan_wellFormed",
    "Serum.Props.Run.exported_wellFormed",
    "Serum.Props.Run.reported_wellFormed"
   ],
   "note": ""
  },
  {
   "property": "C40",
   "status": "proved",
   "theorems": [
    "Serum.Props.Tracking.own_scope_exact",
    "Serum.Props.Tracking.outer_reported",
    "Serum.Props.Tracking.unresolved_reported",
    "Serum.Props.Tracking.nil_accepted",
    "Serum.Props.ReturnScope.returned_reported",
    "Serum.Props.ReturnScope.report_justified",
    "Serum.Props.Run.returned_outside_reported",
    "Serum.Props.Run.outside_report_justified"
   ],
   "note": "exact for each returned identifier, for bodies and for whole runs"
  },
  {
   "property": "C41",
   "status": "proved",
   "theorems": [
    "Serum.Props.Session.facts_from_owner",
    "Serum.Props.Session.facts_travel",
    "Serum.Props.Session.declarations_travel",
    "Serum.Props.Session.facts_complete",
    "Serum.Props.Session.unrelated_packages"
   ],
   "note": "the driver (singlechecker) is modelled by its contract"
  },
  {
   "property": "C42",
   "status": "partial",
   "theorems": [
    "Serum.Props.Linked.linked_sound_partial",
    "Serum.Props.Linked.holds_declared",
    "Serum.Props.Linked.coherent",
    "Serum.Props.Linked.Escapes.unsupported"
   ],
   "note": "packages in the scope of C24 and C31, and programs that satisfy Linked.Supported; each of its conditions is shown to be needed (Props/LinkedLimits.lean)"
  },
  {
   "property": "C43",
   "status": "partial",
   "theorems": [
    "Serum.Props.Machine.returned_yields",
    "Serum.Props.Machine.machine_sound_partial",
    "Serum.Props.Machine.Shared.returned_b",
    "Serum.Props.Machine.Literal.returned_b",
    "Serum.Props.Machine.Packages.returned_run"
   ],
   "note": "a machine with heap, variables and concurrently executed functions (Spec/Machine.lean) refines the semantics of C24/C42; scope as for C42, and the machine excludes what is listed in Spec/Machine.lean: stores into errors held by unrelated executions (see aliased_store_missed and foreign_store_missed), wrong annotations, deferred changes"
  },
  {
   "property": "C44",
   "status": "proved",
   "theorems": [
    "Serum.Props.Run.undeclared_derivable",
    "Serum.Props.CallGraph.found_derivable",
    "Serum.Props.CallGraph.own_found",
    "Serum.Props.CallGraph.found_reachable",
    "Serum.Props.Run.conversions_derivable"
   ],
   "note": "conversions_derivable: the same for reports about conversions, where the syntax is as in C34"
  },
  {
   "property": "C45",
   "status": "proved",
   "theorems": [
    "Serum.Props.Texts.mismatch_readable",
    "Serum.Props.Texts.function_mismatch_readable",
    "Serum.Props.Texts.conversion_readable",
    "Serum.Props.Texts.conversion_says",
    "Serum.Props.Texts.mismatch_names",
    "Serum.Props.Texts.mismatch_says",
    "Serum.Props.Texts.Quotes.unique",
    "Serum.Props.Texts.codes_readable",
    "Serum.Props.Texts.constructor_readable",
    "Serum.Props.Texts.error_type_readable",
    "Serum.Props.Texts.error_type_text_deterministic",
    "Serum.Props.Texts.run_mismatches_readable"
   ],
   "note": "an ErrorInterface fact shows the names of its methods only"
  },
  {
   "property": "C46",
   "status": "proved",
   "theorems": [
    "Serum.Props.Literals.literal_codes",
    "Serum.Props.Literals.literal_silent_iff",
    "Serum.Props.Literals.not_an_error",
    "Serum.Props.Literals.text_exact"
   ],
   "note": "the length limit of C27 is part of the statement"
  },
  {
   "property": "C47",
   "status": "partial",
   "theorems": [
    "Serum.Props.Run.corrections_partial",
    "Serum.Props.Run.all_corrected_partial",
    "Serum.Props.Run.fixable_partial",
    "Serum.Props.Run.wrong_fixed"
   ],
   "note": "declared functions must not reach a function literal that calls back: with them, reports depend on the map order (CallGraph.order_matters), so they can come back"
  },
  {
   "property": "C48",
   "status": "partial",
   "theorems": [
    "Serum.Props.Edits.body_reports_local",
    "Serum.Props.Edits.mismatch_local_partial",
    "Serum.Props.Edits.onlyBodies_of_functions",
    "Serum.Props.Edits.edit_kept"
   ],
   "note": "the reports in bodies: without restriction; the report about the declaration: for functions that do not reach a literal calling back (CallGraph.order_matters)"
  },
  {
   "property": "C49",
   "status": "partial",
   "theorems": [
    "Serum.Props.Session.facts_again",
    "Serum.Props.Session.program_again_partial",
    "Serum.Props.Run.same_inputs_partial",
    "Serum.Props.Run.same_success_partial",
    "Serum.Props.Session.Again.same",
    "Serum.Props.Part.reports_of_part_partial",
    "Serum.Props.Part.Example.b_reports",
    "Serum.Props.Part.next_succeeds_partial",
    "Serum.Props.Part.Example.b_next"
   ],
   "note": "facts: without restriction; diagnostics: as C20, for packages in which the functions compared with declarations do not reach a literal calling back"
  },
  {
   "property": "C50",
   "status": "partial",
   "theorems": [
    "Serum.Props.Dependencies.changes_local_partial",
    "Serum.Props.Dependencies.gains_monotone_partial",
    "Serum.Props.Dependencies.others_unchanged",
    "Serum.Props.Dependencies.success_partial",
    "Serum.Props.Dependencies.conversions_local_partial",
    "Serum.Props.Dependencies.conversions_monotone_partial",
    "Serum.Props.Dependencies.Example.now_missing",
    "Serum.Props.Dependencies.Example.local_changes",
    "Serum.Props.Dependencies.Smuggling.now_reported",
    "Serum.Props.Dependencies.Smuggling.local_changes",
    "Serum.Props.Dependencies.Smuggling.monotone"
   ],
   "note": "reports about declarations: for functions that do not reach a literal calling back (CallGraph.order_matters); reports about conversions: for methods that do not, and the syntax of C34; other reports: without restriction"
  },
  {
   "property": "C51",
   "status": "proved",
   "theorems": [
    "Serum.Props.Comments.source_grammar",
    "Serum.Props.Comments.source_round_trip",
    "Serum.Props.Comments.marked_not_directive",
    "Serum.Props.Comments.line_comment",
    "Serum.Props.Comments.text_shape",
    "Serum.Props.Comments.directive_unseen",
    "Serum.Props.Comments.style_irrelevant",
    "Serum.Props.Comments.styles_alike",
    "Serum.Props.Comments.blank_lines_irrelevant",
    "Serum.Props.Comments.source_annotation",
    "Serum.Props.Comments.source_no_annotation",
    "Serum.Props.Comments.comment_map",
    "Serum.Props.Comments.exported_as_written",
    "Serum.Props.Comments.nothing_as_written",
    "Serum.Props.Comments.constructor_as_written",
    "Serum.Props.Comments.interface_as_written"
   ],
   "note": "CommentGroup.Text of go/ast is modelled from its source"
  },
  {
   "property": "C52",
   "status": "proved",
   "theorems": [
    "Serum.Props.TypeReports.reports",
    "Serum.Props.TypeReports.other_types",
    "Serum.Props.TypeReports.run_reports"
   ],
   "note": "for Code methods whose variables are used as Go's type checker demands (Typed) and whose nested literals' parameters are lexically scoped (Scoped, C23); constants of more than 70 characters count as no codes (C27)"
  },
  {
   "property": "C53",
   "status": "partial",
   "theorems": [
    "Serum.Props.Rearrange.positions",
    "Serum.Props.Rearrange.functions_as_schedule",
    "Serum.Props.Rearrange.order_partial",
    "Serum.Props.Rearrange.rearranged_partial",
    "Serum.Props.Rearrange.success_partial",
    "Serum.Props.Rearrange.last_of_distinct",
    "Serum.Props.Rearrange.pkg_rearranged_same",
    "Serum.Props.Rearrange.blanks_order_matters"
   ],
   "note": "moving without reordering (positions) and reordering functions (functions_as_schedule: exactly as another map order) are complete; the combined theorem assumes, as C17-C19, that no function literal calls back (known false otherwise: Callback), and for panics that called literals are as the parser makes them. The copy of a literal's result position in its AST node is not read by the model and kept."
  },
  {
   "property": "C54",
   "status": "proved",
   "theorems": [
    "Serum.Check.every_order",
    "Serum.Check.always",
    "Serum.Check.exports_same",
    "Serum.Check.prints",
    "Serum.Testdata.annotation.always",
    "Serum.Testdata.dereferenceAssignment.always",
    "Serum.Testdata.docformat.always",
    "Serum.Testdata.dotimport.always",
    "Serum.Testdata.dotimportInner1.always",
    "Serum.Testdata.dotimportInner2.always",
    "Serum.Testdata.errorConstructor.always",
    "Serum.Testdata.errortypes.always",
    "Serum.Testdata.examples.always",
    "Serum.Testdata.fieldAssignment.always",
    "Serum.Testdata.funcLiteral.always",
    "Serum.Testdata.funcLiteralInner.always",
    "Serum.Testdata.interfaces.always",
    "Serum.Testdata.interfacesInner1.always",
    "Serum.Testdata.interfacesInner2.always",
    "Serum.Testdata.methods.always",
    "Serum.Testdata.multifile.always",
    "Serum.Testdata.multipackage.always",
    "Serum.Testdata.multipackageInner1.always",
    "Serum.Testdata.multipackageInner2.always",
    "Serum.Testdata.p001.always",
    "Serum.Testdata.recursion.always",
    "Serum.Testdata.typeAssertion.always",
    "Serum.Testdata.typecast.always",
    "Serum.Testdata.annotation.prints",
    "Serum.Testdata.dereferenceAssignment.prints",
    "Serum.Testdata.docformat.prints",
    "Serum.Testdata.dotimport.prints",
    "Serum.Testdata.dotimportInner1.prints",
    "Serum.Testdata.dotimportInner2.prints",
    "Serum.Testdata.errorConstructor.prints",
    "Serum.Testdata.errortypes.prints",
    "Serum.Testdata.examples.prints",
    "Serum.Testdata.fieldAssignment.prints",
    "Serum.Testdata.funcLiteral.prints",
    "Serum.Testdata.funcLiteralInner.prints",
    "Serum.Testdata.interfaces.prints",
    "Serum.Testdata.interfacesInner1.prints",
    "Serum.Testdata.interfacesInner2.prints",
    "Serum.Testdata.methods.prints",
    "Serum.Testdata.multifile.prints",
    "Serum.Testdata.multipackage.prints",
    "Serum.Testdata.multipackageInner1.prints",
    "Serum.Testdata.multipackageInner2.prints",
    "Serum.Testdata.p001.prints",
    "Serum.Testdata.recursion.prints",
    "Serum.Testdata.typeAssertion.prints",
    "Serum.Testdata.typecast.prints"
   ],
   "note": "the packages are written in Lean by scripts/conformance (a parser and type checker for the Go subset in the test data, in Python); that they are those of the repository rests on that program, the theorems about them do not"
  },
  {
   "property": "C55",
   "status": "partial",
   "theorems": [
    "Serum.Props.Adoption.unaffected",
    "Serum.Props.Adoption.declarations_unaffected",
    "Serum.Props.Adoption.added",
    "Serum.Props.Adoption.comparison_unaffected_partial",
    "Serum.Props.Adoption.undeclared_untouched",
    "Serum.Props.Adoption.adopt_unaffected",
    "Serum.Props.Adoption.adopt_kept",
    "Serum.Props.Adoption.adopt_effect",
    "Serum.Props.Adoption.bare_untouched"
   ],
   "note": "complete except for the comparison with the declaration, which is proved for functions that do not reach a literal calling back (CallGraph.order_matters: for the others it differs even between runs over the same package); reports about conversions do depend on declared codes and are not compared"
  },
  {
   "property": "C56",
   "status": "proved",
   "theorems": [
    "Serum.Props.CommentMap.attached_once",
    "Serum.Props.CommentMap.only_near",
    "Serum.Props.CommentMap.above_attached",
    "Serum.Props.CommentMap.behind_attached",
    "Serum.Props.CommentMap.comments_of_files",
    "Serum.Props.CommentMap.annotation_above",
    "Serum.Props.CommentMap.ex_above",
    "Serum.Props.CommentMap.ex_behind",
    "Serum.Props.CommentMap.ex_below",
    "Serum.Props.CommentMap.ex_elsewhere"
   ],
   "note": "ast.NewCommentMap is modelled from its source; that ast.Inspect visits the nodes of a file in the order given is part of the statement (it ranges over all orders of nodes)"
  },
  {
   "property": "C57",
   "status": "proved",
   "theorems": [
    "Serum.Props.Messages.readable",
    "Serum.Props.Messages.all_used",
    "Serum.Props.Messages.shown_readable",
    "Serum.Props.Messages.msg_inj",
    "Serum.Props.Messages.tag_inj",
    "Serum.Props.Messages.claim_inj",
    "Serum.Props.Messages.iface_inj",
    "Serum.Props.Messages.docError_text",
    "Serum.Props.Messages.mismatch_text",
    "Serum.Props.Messages.embedded_text",
    "Serum.Props.Messages.conversion_text",
    "Serum.Props.Messages.shown_body",
    "Serum.Props.Messages.shown_mismatch",
    "Serum.Props.Messages.shown_outside",
    "Serum.because_iff",
    "Serum.Check.prints"
   ],
   "note": "the formats are verbatim those of the source; names of types inserted by %T have no spaces"
  },
  {
   "property": "C58",
   "status": "proved",
   "theorems": [
    "Serum.Props.BodyReports.body_exact",
    "Serum.Props.BodyReports.run_exact",
    "Serum.Check.fine_sound",
    "Serum.Check.bodies_met",
    "Serum.Check.bodies_reported",
    "Serum.Testdata.examples.bodiesExact",
    "Serum.Testdata.funcLiteral.bodiesExact"
   ],
   "note": "for bodies whose parameters of nested literals are lexically scoped (Regular, C23), about which the type checker's guarantees hold (Typed: no constant is a function, a variable has one type), and which do not crash (C22); that a function is looked at is as in C37. The hypotheses are decided by a checker (fine_sound), which succeeds for all 24 packages in analysis/testdata (Testdata/Bodies.lean)"
  },
  {
   "property": "C59",
   "status": "proved",
   "theorems": [
    "Serum.Props.Renaming.renamed",
    "Serum.Props.Renaming.renamed_moved",
    "Serum.Props.Renaming.code_parameter_matters",
    "Serum.Props.Renaming.nil_matters"
   ],
   "note": "identifiers are resolved in the model, so renaming keeps what they refer to (a key of a composite literal may be resolved to something else afterwards, as the Go parser does); code_parameter_matters and nil_matters show that both conditions are needed"
  },
  {
   "property": "C60",
   "status": "proved",
   "theorems": [
    "Serum.Props.Renaming.left_out",
    "Serum.Props.Renaming.conversion_matters",
    "Serum.Props.Renaming.assignment_matters"
   ],
   "note": "together with renaming (C59); the statements must not have the forms excluded in C34 either (an unusual form can crash the analyzer); conversion_matters and assignment_matters show that the conditions are needed; statements in blocks, cases, loops and function literals are covered"
  },
  {
   "property": "C61",
   "status": "partial",
   "theorems": [
    "Serum.Props.Removal.unaffected",
    "Serum.Props.Removal.declarations_unaffected",
    "Serum.Props.Removal.comparison_unaffected_partial",
    "Serum.Props.Removal.conversions_unaffected_partial",
    "Serum.Props.Removal.removed_silent",
    "Serum.Props.Removal.success_partial"
   ],
   "note": "the comparison with declarations is partial: functions that can reach a literal calling back are excluded, as in C23, and conversions as in C31/C34; success_partial (the run without them ends without a panic if the run with them does; the converse is false, since a function added can panic by itself) assumes that function literals are as the parser guarantees; methods are not removed (removing one changes which types implement error interfaces); Removal.grown_unaffected, grown_conversions, grown_reported and shrunk_succeeds show that the hypotheses are met"
  },
  {
   "property": "C62",
   "status": "proved",
   "theorems": [
    "Serum.Props.Imports.unmet_imports",
    "Serum.Props.Imports.upgraded_dependencies",
    "Serum.Props.Imports.Upgrade.met_matters"
   ],
   "note": "Imports.Upgrade.upgraded shows that the hypotheses are met (a dependency gets a new function), met_matters that the condition is needed"
  },
  {
   "property": "C63",
   "status": "proved",
   "theorems": [
    "Serum.Props.Part.part_of_program",
    "Serum.Props.Part.facts_of_part",
    "Serum.Props.Part.Example.without_c"
   ],
   "note": "with the same iteration order of maps inside each package; facts_of_part: in any order; reports in any order: C49 (reports_of_part_partial); without_c is an instance: two packages with and without a third one"
  },
  {
   "property": "C64",
   "status": "partial",
   "theorems": [
    "Serum.Props.BodyCodes.body_codes_exact_partial",
    "Serum.Props.BodyCodes.codes_derived",
    "Serum.Props.BodyCodes.mismatches_derived_partial",
    "Serum.Props.BodyCodes.wrong_derived"
   ],
   "note": "partial: bodies in which an annotation removes codes of a variable that another return statement may return too (there the codes depend on the order of statements: Bodies.annotation_leaks); for runs: functions that can reach such an annotation, or a literal that calls back (Settled, as in C23); wrong_derived is an instance for a run"
  }
 ]
}