#!/usr/bin/env python3
"""Writes /verif/MANIFEST.json from the table below."""
import json
P="Serum.Props."
T={
"C01":("proved",["CodeFormat.valid_iff_pattern","CodeFormat.valid_ascii"],""),
"C02":("proved",["ErrorDocs.parse_iff_grammar","ErrorDocs.parse_fails_iff","ErrorDocs.grammar_unambiguous"],""),
"C03":("proved",["ErrorDocs.write_read"],""),
"C04":("proved",["ErrorDocs.prose_before","ErrorDocs.prose_after_block","ErrorDocs.prose_after_none","ErrorDocs.text_inside_block","ErrorDocs.indentation","Space.trim_exact","Space.blank_exact","Space.split_exact"],""),
"C05":("proved",["ErrorDocs.no_blank_line_refused","ErrorDocs.bad_entry_refused","ErrorDocs.entry_without_dashes_refused","ErrorDocs.malformed_code_refused","ErrorDocs.blank_param_refused","ErrorDocs.second_param_refused","ErrorDocs.repeated_indicator_refused"],""),
"C06":("proved",["ErrorDocs.none_iff","ErrorDocs.none_accepted"],""),
"C07":("proved",["ErrorDocs.declared_codes_wellFormed","Annotations.annotation_codes_wellFormed"],""),
"C08":("proved",["Annotations.no_indicator","Annotations.accepted_iff","Annotations.malformed_reported","Annotations.several_reported","Annotations.meaning_unique","Space.trim_exact"],""),
"C09":("proved",["Annotations.effect","Annotations.removed_and_added"],""),
"C10":("partial",["Bodies.returns_independent_partial","Bodies.annotation_leaks"],"false of the code when an annotated return shares a variable with a later plain return (annotation_leaks)"),
"C11":("proved",["CodeSets.sliceToSet_spec","CodeSets.slice_spec","CodeSets.add_spec","CodeSets.add_nil_panics","CodeSets.union_spec","CodeSets.difference_spec","CodeSets.union_order_independent","CodeSets.value_model_agrees"],""),
"C12":("proved",["Reports.mismatch_exact","Run.mismatches_exact_partial"],""),
"C13":("proved",["Reports.mismatch_deterministic","Reports.fact_text_deterministic","Reports.interface_text_deterministic","Reports.interface_report_deterministic"],""),
"C14":("proved",["Components.components_exact"],""),
"C15":("proved",["Components.callees_first"],""),
"C16":("proved",["Components.never_panics","Components.components_exact"],""),
"C17":("partial",["CallGraph.transitive_codes_partial","CallGraph.found_reachable","Run.mismatches_exact_partial"],"exact for every function that does not reach a literal calling back its visitor (Settled; order_matters shows why), whatever the rest of the program; for the others only that nothing is made up (found_reachable)"),
"C18":("partial",["CallGraph.cycle_shares_codes_partial"],"for Settled functions, as C17"),
"C19":("partial",["CallGraph.codes_are_least_partial","CallGraph.codesOf_least_consistent","CallGraph.cache_is_exact_partial","CallGraph.found_derivable","CallGraph.own_found","CallGraph.found_iff_reached","CallGraph.partly_settled"],"for Settled functions, as C17; found_derivable, own_found and found_iff_reached hold for all"),
"C20":("partial",["CallGraph.order_independent_partial","CallGraph.order_matters","CallGraph.success_order_independent","Interfaces.order_independent_partial","Conversions.order_independent_partial","Run.order_independent_partial","Messages.shown_perm","Messages.shown_order_independent_partial","Run.Callback.order_matters","Run.facts_order_independent_partial","Run.success_order_independent_partial","Run.field_order_independent","Run.all_orders_independent_partial"],"false of the code for a literal held in a local variable that calls back its enclosing function's caller (CallGraph.order_matters, and for a whole package Run.Callback.order_matters: silent in one order, a report in the other); proved for all other programs"),
"C21":("proved",["Bodies.analysis_terminates","CallGraph.terminates","ErrorTypes.tagging_terminates","Run.run_terminates","Run.bodies_terminate","Interfaces.search_ends","Interfaces.declarations_end"],""),
"C22":("partial",["Crash.body_exact","Crash.search_exact","Crash.search_succeeds_partial","CallGraph.succeeds_iff","CallGraph.literal_called_twice_panics","Crash.map_index_panics","Crash.named_function_type_panics","Crash.two_fields_panic","Crash.bodiless_panics","Crash.callee_panics","Crash.multi_value_argument_panics","Run.declarations_read","Run.run_succeeds_iff","Run.run_panics_exact","Run.run_succeeds_partial","Run.values_uncalled","Run.broken_panics"],"false of the code in general (the *_panics witnesses); when it panics is characterised exactly: for one body (body_exact, in terms of the syntax), for the search (search_exact) and for a whole run (declarations_read, run_succeeds_iff, run_panics_exact)"),
"C23":("partial",["Tracking.tracking_exact_partial","Tracking.nested_parameter_accepted","Serum.Check.fine_sound"],"false of the code for a nested literal's parameter reached through an alias (nested_parameter_accepted); proved for bodies meeting ScopeOk"),
"C24":("partial",["Soundness.silent_run_sound_partial","Soundness.silent_run_declared_partial","Soundness.range_variable_missed","Soundness.errors_as_missed","Soundness.aliased_store_missed","Soundness.deref_store_missed","Soundness.zero_value_missed","Soundness.deferred_missed","Soundness.conversion_missed","Soundness.foreign_store_missed","Soundness.range_function_missed","Soundness.method_expression_missed","Soundness.failed_assertion_missed","Run.silent_declared_partial","Run.Callback.order_matters","Serum.Check.inScope_sound","Serum.Check.silentSound","Serum.Check.returnsOnly","Serum.Testdata.annotation.returnsOnly","Serum.Testdata.docformat.returnsOnly","Serum.Testdata.dotimport.returnsOnly","Serum.Testdata.dotimportInner1.returnsOnly","Serum.Testdata.dotimportInner2.returnsOnly","Serum.Testdata.errorConstructor.returnsOnly","Serum.Testdata.examples.returnsOnly","Serum.Testdata.fieldAssignment.returnsOnly","Serum.Testdata.funcLiteral.returnsOnly","Serum.Testdata.funcLiteralInner.returnsOnly","Serum.Testdata.interfaces.returnsOnly","Serum.Testdata.interfacesInner1.returnsOnly","Serum.Testdata.interfacesInner2.returnsOnly","Serum.Testdata.methods.returnsOnly","Serum.Testdata.multifile.returnsOnly","Serum.Testdata.multipackage.returnsOnly","Serum.Testdata.multipackageInner1.returnsOnly","Serum.Testdata.multipackageInner2.returnsOnly","Serum.Testdata.p001.returnsOnly","Serum.Testdata.recursion.returnsOnly","Serum.Testdata.typeAssertion.returnsOnly","Serum.Testdata.typecast.returnsOnly"],"false of the code in general (the *_missed witnesses); proved, against the run time semantics of Spec/Runtime.lean, for the functions described in Spec/Supported.lean that call only such functions. Check.inScope decides a sufficient condition; Testdata.*.returnsOnly are instances for the packages in analysis/testdata, without hypotheses other than that other packages do what they declare"),
"C25":("proved",["Calls.declared_call","Calls.undeclared_foreign_call","Calls.undeclared_dot_import","Calls.undeclared_method_call","Calls.local_call","Calls.calls_in_run"],""),
"C26":("partial",["Claims.positions_agree","TypeReports.parameter_at","TypeReports.getParamPosition_iff","Extract.constructor_argument","Extract.constructor_otherwise","Extract.multi_value_argument_panics","Run.exported_constructors"],"a multi-value argument list makes the analyser panic"),
"C27":("partial",["Extract.constant_code_partial","Extract.long_code_refused","Extract.constant_collected","Extract.constant_accepted_partial"],"false of the code for codes longer than 70 characters (long_code_refused)"),
"C28":("proved",["Extract.keyed_literal","Extract.key_order","Extract.positional_eq_keyed","Extract.literal_wrapped"],""),
"C29":("partial",["ErrorTypes.code_method_covered_partial","ErrorTypes.recorded_exact_partial","ErrorTypes.receiver_reassigned","ErrorTypes.deferred_result","Run.exported_error_types_partial","Run.code_methods_covered_partial"],"false of the code for methods that reassign their receiver or change a named result in a deferred call (witnesses); proved for the remaining fragment"),
"C30":("partial",["Fields.assigned_codes_partial","Fields.assigned","Fields.nested_assignment_missed","Fields.parenthesised_assignment_missed"],"false of the code for assignments nested in a literal on the right of another assignment, and for (err).Field (witnesses)"),
"C33":("partial",["Interfaces.recorded_exact_partial","Interfaces.mismatch_iff_partial","Interfaces.order_independent_partial","Interfaces.search_ends","Interfaces.declarations_end","Interfaces.local_type_replaces","Interfaces.dot_imported_ignored","Interfaces.mismatches_exact_partial","Interfaces.mismatches_counted_partial","Run.interface_reports_counted_partial","Interfaces.unrecordable_exact","Run.exported_interfaces_partial","Run.interfaces_exact_partial","Run.interface_reports_exact_partial"],"for interface names declared once per package: a function-local type of the same name replaces the record (local_type_replaces); dot-imported embedded interfaces are ignored (dot_imported_ignored)"),
"C31":("proved",["Conversions.accepted_iff","Conversions.reports_exact_partial","Conversions.nil_and_same_accepted","Conversions.silent_means_acceptable_partial","Conversions.undeclared_foreign_accepted","Conversions.reports_derivable","Conversions.smuggled_reported_partial","Conversions.smuggled_code_reported_partial","Run.smuggled_iff_partial","Run.conversions_exact_partial","Run.conversion_reported_partial","Run.conversions_derivable"],"accepted_iff is the property for one use; reports_exact_partial extends it to whole packages, for the conversions of C34. A method's codes are the declared ones, else those found in its body; a foreign method without declaration has none (undeclared_foreign_accepted). Methods without declaration whose body leads to a literal calling back (MethodSettled) are excluded from exactness; reports_derivable covers them"),
"C32":("partial",["Conversions.transitive_partial","Conversions.chain_partial","Conversions.not_transitive"],"for chains of interfaces which declare the methods concerned; through an interface that does not, codes can be smuggled (not_transitive)"),
"C34":("partial",["Conversions.positions_exact_partial","Conversions.package_checked_partial","Conversions.every_node_visited","Conversions.no_crash_partial","Conversions.named_function_type_unchecked","Conversions.conversion_to_function_type_crashes","Conversions.spread_crashes","Conversions.forwarded_results_crash","Conversions.forwarded_return_crashes","Conversions.range_over_named_pointer_crashes","Conversions.literal_of_unnamed_pointer_unchecked","Conversions.pointer_assertion_checked","Run.conversions_exact_partial"],"exact for all syntax except the forms excluded by Supported, for each of which there is a witness that the analyser goes wrong"),
"C35":("proved",["Claims.strict_only_adds","Claims.not_strict_no_report","Claims.claims_exact","Run.strict_run","Run.declaration_reports_exact"],""),
"C36":("proved",["Claims.misplaced_exact","Claims.analysed_exact","Claims.empty_results_panic","Run.signatures_exact"],"functions with an empty parenthesised result list panic (empty_results_panic)"),
"C38":("proved",["Claims.exported_codes_are_declared","Run.exported_codes","Run.exported_constructors","Run.exported_interfaces_partial","Run.exported_error_types_partial","Run.interfaces_exact_partial","Run.facts_order_independent_partial"],""),
"C40":("proved",["Tracking.own_scope_exact","Tracking.outer_reported","Tracking.unresolved_reported","Tracking.nil_accepted","ReturnScope.returned_reported","ReturnScope.report_justified","Run.returned_outside_reported","Run.outside_report_justified"],"exact for each returned identifier, for bodies and for whole runs"),
"C41":("proved",["Session.facts_from_owner","Session.facts_travel","Session.declarations_travel","Session.facts_complete","Session.unrelated_packages"],"the driver (singlechecker) is modelled by its contract"),
"C42":("partial",["Linked.linked_sound_partial","Linked.holds_declared","Linked.coherent","Linked.Escapes.unsupported"],"packages in the scope of C24 and C31, and programs that satisfy Linked.Supported; each of its conditions is shown to be needed (Props/LinkedLimits.lean)"),
"C43":("partial",["Machine.returned_yields","Machine.machine_sound_partial","Machine.Shared.returned_b","Machine.Literal.returned_b","Machine.Packages.returned_run"],"a machine with heap, variables and concurrently executed functions (Spec/Machine.lean) refines the semantics of C24/C42; scope as for C42, and the machine excludes what is listed in Spec/Machine.lean: stores into errors held by unrelated executions (see aliased_store_missed and foreign_store_missed), wrong annotations, deferred changes"),
"C44":("proved",["Run.undeclared_derivable","CallGraph.found_derivable","CallGraph.own_found","CallGraph.found_reachable","Run.conversions_derivable"],"conversions_derivable: the same for reports about conversions, where the syntax is as in C34"),
"C46":("proved",["Literals.literal_codes","Literals.literal_silent_iff","Literals.not_an_error","Literals.text_exact"],"the length limit of C27 is part of the statement"),
"C45":("proved",["Texts.mismatch_readable","Texts.function_mismatch_readable","Texts.conversion_readable","Texts.conversion_says","Texts.mismatch_names","Texts.mismatch_says","Texts.Quotes.unique","Texts.codes_readable","Texts.constructor_readable","Texts.error_type_readable","Texts.error_type_text_deterministic","Texts.run_mismatches_readable"],"an ErrorInterface fact shows the names of its methods only"),
"C47":("partial",["Run.corrections_partial","Run.all_corrected_partial","Run.fixable_partial","Run.wrong_fixed"],"declared functions must not reach a function literal that calls back: with them, reports depend on the map order (CallGraph.order_matters), so they can come back"),
"C48":("partial",["Edits.body_reports_local","Edits.mismatch_local_partial","Edits.onlyBodies_of_functions","Edits.edit_kept"],"the reports in bodies: without restriction; the report about the declaration: for functions that do not reach a literal calling back (CallGraph.order_matters)"),
"C49":("partial",["Session.facts_again","Session.program_again_partial","Run.same_inputs_partial","Run.same_success_partial","Session.Again.same","Part.reports_of_part_partial","Part.Example.b_reports","Part.next_succeeds_partial","Part.Example.b_next"],"facts: without restriction; diagnostics: as C20, for packages in which the functions compared with declarations do not reach a literal calling back"),
"C50":("partial",["Dependencies.changes_local_partial","Dependencies.gains_monotone_partial","Dependencies.others_unchanged","Dependencies.success_partial","Dependencies.conversions_local_partial","Dependencies.conversions_monotone_partial","Dependencies.Example.now_missing","Dependencies.Example.local_changes","Dependencies.Smuggling.now_reported","Dependencies.Smuggling.local_changes","Dependencies.Smuggling.monotone"],"reports about declarations: for functions that do not reach a literal calling back (CallGraph.order_matters); reports about conversions: for methods that do not, and the syntax of C34; other reports: without restriction"),
"C51":("proved",["Comments.source_grammar","Comments.source_round_trip","Comments.marked_not_directive","Comments.line_comment","Comments.text_shape","Comments.directive_unseen","Comments.style_irrelevant","Comments.styles_alike","Comments.blank_lines_irrelevant","Comments.source_annotation","Comments.source_no_annotation","Comments.comment_map","Comments.exported_as_written","Comments.nothing_as_written","Comments.constructor_as_written","Comments.interface_as_written"],"CommentGroup.Text of go/ast is modelled from its source"),
"C52":("proved",["TypeReports.reports","TypeReports.other_types","TypeReports.run_reports"],"for Code methods whose variables are used as Go's type checker demands (Typed) and whose nested literals' parameters are lexically scoped (Scoped, C23); constants of more than 70 characters count as no codes (C27)"),
"C53":("partial",["Rearrange.positions","Rearrange.functions_as_schedule","Rearrange.order_partial","Rearrange.rearranged_partial","Rearrange.success_partial","Rearrange.last_of_distinct","Rearrange.pkg_rearranged_same","Rearrange.blanks_order_matters"],"moving without reordering (positions) and reordering functions (functions_as_schedule: exactly as another map order) are complete; the combined theorem assumes, as C17-C19, that no function literal calls back (known false otherwise: Callback), and for panics that called literals are as the parser makes them. The copy of a literal's result position in its AST node is not read by the model and kept."),
"C54":("proved",["Serum.Check.every_order","Serum.Check.always","Serum.Check.exports_same","Serum.Check.prints","Serum.Testdata.annotation.always","Serum.Testdata.dereferenceAssignment.always","Serum.Testdata.docformat.always","Serum.Testdata.dotimport.always","Serum.Testdata.dotimportInner1.always","Serum.Testdata.dotimportInner2.always","Serum.Testdata.errorConstructor.always","Serum.Testdata.errortypes.always","Serum.Testdata.examples.always","Serum.Testdata.fieldAssignment.always","Serum.Testdata.funcLiteral.always","Serum.Testdata.funcLiteralInner.always","Serum.Testdata.interfaces.always","Serum.Testdata.interfacesInner1.always","Serum.Testdata.interfacesInner2.always","Serum.Testdata.methods.always","Serum.Testdata.multifile.always","Serum.Testdata.multipackage.always","Serum.Testdata.multipackageInner1.always","Serum.Testdata.multipackageInner2.always","Serum.Testdata.p001.always","Serum.Testdata.recursion.always","Serum.Testdata.typeAssertion.always","Serum.Testdata.typecast.always","Serum.Testdata.annotation.prints","Serum.Testdata.dereferenceAssignment.prints","Serum.Testdata.docformat.prints","Serum.Testdata.dotimport.prints","Serum.Testdata.dotimportInner1.prints","Serum.Testdata.dotimportInner2.prints","Serum.Testdata.errorConstructor.prints","Serum.Testdata.errortypes.prints","Serum.Testdata.examples.prints","Serum.Testdata.fieldAssignment.prints","Serum.Testdata.funcLiteral.prints","Serum.Testdata.funcLiteralInner.prints","Serum.Testdata.interfaces.prints","Serum.Testdata.interfacesInner1.prints","Serum.Testdata.interfacesInner2.prints","Serum.Testdata.methods.prints","Serum.Testdata.multifile.prints","Serum.Testdata.multipackage.prints","Serum.Testdata.multipackageInner1.prints","Serum.Testdata.multipackageInner2.prints","Serum.Testdata.p001.prints","Serum.Testdata.recursion.prints","Serum.Testdata.typeAssertion.prints","Serum.Testdata.typecast.prints"],"the packages are written in Lean by scripts/conformance (a parser and type checker for the Go subset in the test data, in Python); that they are those of the repository rests on that program, the theorems about them do not"),
"C55":("partial",["Adoption.unaffected","Adoption.declarations_unaffected","Adoption.added","Adoption.comparison_unaffected_partial","Adoption.undeclared_untouched","Adoption.adopt_unaffected","Adoption.adopt_kept","Adoption.adopt_effect","Adoption.bare_untouched"],"complete except for the comparison with the declaration, which is proved for functions that do not reach a literal calling back (CallGraph.order_matters: for the others it differs even between runs over the same package); reports about conversions do depend on declared codes and are not compared"),
"C56":("proved",["CommentMap.attached_once","CommentMap.only_near","CommentMap.above_attached","CommentMap.behind_attached","CommentMap.comments_of_files","CommentMap.annotation_above","CommentMap.ex_above","CommentMap.ex_behind","CommentMap.ex_below","CommentMap.ex_elsewhere"],"ast.NewCommentMap is modelled from its source; that ast.Inspect visits the nodes of a file in the order given is part of the statement (it ranges over all orders of nodes)"),
"C57":("proved",["Messages.readable","Messages.all_used","Messages.shown_readable","Messages.msg_inj","Messages.tag_inj","Messages.claim_inj","Messages.iface_inj","Messages.docError_text","Messages.mismatch_text","Messages.embedded_text","Messages.conversion_text","Messages.shown_body","Messages.shown_mismatch","Messages.shown_outside","Serum.because_iff","Serum.Check.prints"],"the formats are verbatim those of the source; names of types inserted by %T have no spaces"),
"C58":("proved",["BodyReports.body_exact","BodyReports.run_exact","Serum.Check.fine_sound","Serum.Check.bodies_met","Serum.Check.bodies_reported","Serum.Testdata.examples.bodiesExact","Serum.Testdata.funcLiteral.bodiesExact"],"for bodies whose parameters of nested literals are lexically scoped (Regular, C23), about which the type checker's guarantees hold (Typed: no constant is a function, a variable has one type), and which do not crash (C22); that a function is looked at is as in C37. The hypotheses are decided by a checker (fine_sound), which succeeds for all 24 packages in analysis/testdata (Testdata/Bodies.lean)"),
"C59":("proved",["Renaming.renamed","Renaming.renamed_moved","Renaming.code_parameter_matters","Renaming.nil_matters"],"identifiers are resolved in the model, so renaming keeps what they refer to (a key of a composite literal may be resolved to something else afterwards, as the Go parser does); code_parameter_matters and nil_matters show that both conditions are needed"),
"C60":("proved",["Renaming.left_out","Renaming.conversion_matters","Renaming.assignment_matters"],"together with renaming (C59); the statements must not have the forms excluded in C34 either (an unusual form can crash the analyzer); conversion_matters and assignment_matters show that the conditions are needed; statements in blocks, cases, loops and function literals are covered"),
"C61":("partial",["Removal.unaffected","Removal.declarations_unaffected","Removal.comparison_unaffected_partial","Removal.conversions_unaffected_partial","Removal.removed_silent","Removal.success_partial"],"the comparison with declarations is partial: functions that can reach a literal calling back are excluded, as in C23, and conversions as in C31/C34; success_partial (the run without them ends without a panic if the run with them does; the converse is false, since a function added can panic by itself) assumes that function literals are as the parser guarantees; methods are not removed (removing one changes which types implement error interfaces); Removal.grown_unaffected, grown_conversions, grown_reported and shrunk_succeeds show that the hypotheses are met"),
"C62":("proved",["Imports.unmet_imports","Imports.upgraded_dependencies","Imports.Upgrade.met_matters"],"Imports.Upgrade.upgraded shows that the hypotheses are met (a dependency gets a new function), met_matters that the condition is needed"),
"C63":("proved",["Part.part_of_program","Part.facts_of_part","Part.Example.without_c"],"with the same iteration order of maps inside each package; facts_of_part: in any order; reports in any order: C49 (reports_of_part_partial); without_c is an instance: two packages with and without a third one"),
"C64":("partial",["BodyCodes.body_codes_exact_partial","BodyCodes.codes_derived","BodyCodes.mismatches_derived_partial","BodyCodes.wrong_derived"],"partial: bodies in which an annotation removes codes of a variable that another return statement may return too (there the codes depend on the order of statements: Bodies.annotation_leaks); for runs: functions that can reach such an annotation, or a literal that calls back (Settled, as in C23); wrong_derived is an instance for a run"),
"C37":("proved",["CallGraph.body_once","Run.bodies_once"],""),
"C39":("proved",["Bodies.found_wellFormed","Bodies.plan_wellFormed","Run.exported_wellFormed","Run.reported_wellFormed"],""),
}
out={"claims":[{"property":k,"status":s,"theorems":[t if t.startswith('Serum.') else P+t for t in ts],"note":n} for k,(s,ts,n) in sorted(T.items())]}
json.dump(out,open("/verif/MANIFEST.json","w"),indent=1)
