{"id": "C01", "title": "Value packing round-trips", "statement": "UnpackBytesToU64(PackU64ToBytes(v)) == v for every uint64 v, PackU64ToBytes(UnpackBytesToU64(b)) == b for every 8-byte slice b, and packing into a caller's buffer writes exactly the same bytes. The float variants round-trip the 64-bit pattern.", "quantifier": "all 2^64 values and all 8-byte sequences", "why_tests_cant": "There are 2^64 values; a mask or shift wrong for one byte position shows only on values with that byte set.", "anchors": ["base/util.go: PackU64ToBytes, PackU64ToBytesInline, UnpackBytesToU64, PackFloatToBytes, UnpackBytesToFloat"]}
{"id": "C02", "title": "A stored cell reads back what was last written", "statement": "After any sequence of AddAttribute, Extend and Set calls on a DenseInstances, Get(spec,row) returns the value of the most recent Set to that (spec,row), or the all-zero value if there was none, for 8-byte (float/categorical) attributes.", "quantifier": "all operation histories, all layouts of attributes, all row counts, all values", "why_tests_cant": "The number of histories and layouts is unbounded; tests sample a few literal grids.", "anchors": ["base/dense.go: DenseInstances.Set, Get, Extend, AddAttribute", "base/fixed.go: FixedAttributeGroup.set, get, offset, resize"]}
{"id": "C03", "title": "Writing one cell never changes another", "statement": "Set(spec,row,v) changes no value returned by Get for any other in-range (spec',row') pair, including other columns packed in the same storage, other groups, and other rows.", "quantifier": "all grids reachable by the API, all pairs of cells, all values", "why_tests_cant": "Aliasing errors appear only for particular offsets; the pairs of cells are unbounded.", "anchors": ["base/fixed.go: offset, set", "base/bag.go: getByteOffset, getBitOffset, set", "base/dense.go: Set"]}
{"id": "C04", "title": "Binary attributes store exactly one bit", "statement": "For a BinaryAttribute column, Get after Set(v) returns {1} if v[0] > 0 and {0} otherwise, and the other bits packed in the same byte are unchanged. A value made from the text of a number reads back as the text \"1\" if the number is positive and \"0\" otherwise.", "quantifier": "all column counts, rows, columns and stored bytes", "why_tests_cant": "Bit-packing errors depend on the column's position in its byte and on the values of its neighbours, so every combination of positions and neighbours counts.", "anchors": ["base/bag.go: BinaryAttributeGroup.set, get, getByteOffset, getBitOffset"]}
{"id": "C05", "title": "Extend preserves data and adds zeroed rows", "statement": "Extend(n) increases the row count reported by Size by exactly n, leaves every existing cell unchanged, and every new cell reads as zero.", "quantifier": "all grids, all n, all cells", "why_tests_cant": "It ranges over every layout, every earlier history and every number of added rows; an off-by-one touches only the last old or first new row.", "anchors": ["base/dense.go: Extend, Size", "base/fixed.go: resize", "base/bag.go: resize"]}
{"id": "C06", "title": "Attribute specifications stay valid and distinct", "statement": "Every AttributeSpec returned by AddAttribute addresses storage disjoint from every other returned spec, remains valid after any later AddAttribute or Extend, and AllAttributes lists exactly the added attributes, each once; after Extend further AddAttribute calls are rejected.", "quantifier": "all sequences of additions of float, categorical and binary attributes", "why_tests_cant": "Validity depends on page size, group numbering and the order of additions, and must survive every later call.", "anchors": ["base/dense.go: AddAttribute, createAttributeGroup, AllAttributes, Extend", "base/spec.go"]}
{"id": "C07", "title": "Allocated structure is frozen", "statement": "Once Extend has allocated storage no API call can change the layout so that existing data becomes unreadable or moves: every layout-changing call after Extend is rejected.", "quantifier": "all histories that allocate and then try to add attributes or groups by any entry point", "why_tests_cant": "It needs every history and every entry point; tests try the entry points their author thought of.", "anchors": ["base/dense.go: CreateAttributeGroup, AddAttribute, AddAttributeToAttributeGroup, Extend"]}
{"id": "C08", "title": "GetAttribute finds exactly the attributes present", "statement": "GetAttribute(a) succeeds iff some attribute in AllAttributes Equals a, and then the returned spec refers to a stored attribute that Equals a (the first such).", "quantifier": "all grids and all attributes", "why_tests_cant": "It is an existence claim over arbitrarily many attributes and groups, including near-duplicates that differ in one field.", "anchors": ["base/dense.go: GetAttribute, AllAttributes"]}
{"id": "C09", "title": "Class attributes behave as a set", "statement": "After any history of AddClassAttribute/RemoveClassAttribute, AllClassAttributes is exactly the set of attributes whose last operation was an Add, each listed once; operations on attributes not in the grid return an error and change nothing.", "quantifier": "all histories of class-attribute operations, all map iteration orders", "why_tests_cant": "Histories are unbounded and the set is read through a map whose order differs from run to run.", "anchors": ["base/dense.go: AddClassAttribute, RemoveClassAttribute, AllClassAttributes"]}
{"id": "C10", "title": "MapOverRows visits every row once, in order, and honours early stop", "statement": "On DenseInstances MapOverRows calls the callback with (values of the requested specs, row) for row = 0,1,2,... in order, exactly once each, until the callback returns false or an error or rows run out; the callback's error is returned.", "quantifier": "all grids, all callbacks (with state), all stopping points", "why_tests_cant": "Every callback and every stopping point must be covered, on grids of every size.", "anchors": ["base/dense.go: MapOverRows"]}
{"id": "C11", "title": "A dense copy is equal and independent", "statement": "NewDenseCopy(g) has the same attributes, class attributes and cell values as g, and later writes to either grid do not affect the other.", "quantifier": "all source grids, all later write histories on either side", "why_tests_cant": "Sharing is visible only after some later write to one of the two grids, at a cell the test happens to read.", "anchors": ["base/dense.go: NewDenseCopy, NewStructuralCopy, copyFixedDataGridStructure"]}
{"id": "C12", "title": "Shuffle is a permutation of rows", "statement": "Shuffle on DenseInstances returns a grid whose rows are a permutation of the original rows (whole rows move together, none lost or duplicated), for every sequence of random draws.", "quantifier": "all grids, all random draws", "why_tests_cant": "The draws are random: a run samples one of n! outcomes.", "anchors": ["base/util_instances.go: Shuffle", "base/dense.go: swapRows"]}
{"id": "C13", "title": "Lazy shuffle presents each row exactly once", "statement": "LazyShuffle returns a view whose rows are a permutation of the source rows for every sequence of random draws.", "quantifier": "all row counts and all random draws", "why_tests_cant": "The failure needs particular sequences of random draws.", "anchors": ["base/util_instances.go: LazyShuffle"]}
{"id": "C14", "title": "Sort permutes whole rows", "statement": "Sort(inst, direction, attrs) on DenseInstances leaves the multiset of rows unchanged for every key, direction and attribute list.", "quantifier": "all grids, attribute lists, directions", "why_tests_cant": "It ranges over all grids and key lists; a test sees a few small permutations.", "anchors": ["base/sort.go: Sort, sortXorOp, createSortSpec"]}
{"id": "C15", "title": "Sort orders rows by key", "statement": "After Sort(inst, Ascending, [a]) with 8-byte values, rows are in non-decreasing order of a's stored value, Descending gives the reverse, and ties keep their input order (stable).", "quantifier": "all grids and keys", "why_tests_cant": "Digit and sign errors of a radix sort appear only for particular byte patterns of the keys.", "anchors": ["base/sort.go: Sort, createSortSpec, sortXorOp"]}
{"id": "C16", "title": "LazySort shows the same order as Sort", "statement": "The view returned by LazySort(inst, dir, attrs) returns through Get, at every row, the same values as the physically sorted grid, without changing the source.", "quantifier": "all grids, directions, attribute lists", "why_tests_cant": "The swap list and the index map must agree for every permutation, not only for the sorted samples of a test.", "anchors": ["base/sort.go: LazySort, Sort"]}
{"id": "C17", "title": "Sampling with replacement returns only source rows", "statement": "SampleWithReplacement(inst, n) is a grid of n rows, each equal to some source row.", "quantifier": "all grids, all n, all random draws", "why_tests_cant": "The draws are random and the sizes of source and sample are independent and unbounded.", "anchors": ["base/util_instances.go: SampleWithReplacement", "base/view.go: Size, Get"]}
{"id": "C18", "title": "Views read through to the source", "statement": "A view built from a list of visible rows returns for row i exactly the source's values at rows[i], reports len(rows) rows, and rejects (panics) any other row; views compose: a view of a view reads the composed row.", "quantifier": "all sources (including views of views), all row lists, attribute subsets", "why_tests_cant": "Views nest to any depth and each level renames rows or columns.", "anchors": ["base/view.go: NewInstancesViewFromVisible, Get, Size, resolveRow"]}
{"id": "C19", "title": "Views iterate the rows they present", "statement": "MapOverRows on a view passes, for each row i the view presents, exactly the values Get returns for row i, each row once.", "quantifier": "all views, all map iteration orders", "why_tests_cant": "It ranges over every view, every nesting and, for views kept in maps, every order of iteration.", "anchors": ["base/view.go: MapOverRows, Get, NewInstancesViewFromRows"]}
{"id": "C20", "title": "Attribute-restricted views hide the other attributes", "statement": "A view restricted to attributes A reports exactly A from AllAttributes, resolves exactly those, drops class attributes outside A and keeps those inside.", "quantifier": "all sources and attribute subsets", "why_tests_cant": "There are exponentially many subsets of attributes and they combine with row selections.", "anchors": ["base/view.go: NewInstancesViewFromAttrs, GetAttribute, AllAttributes, AddClassAttribute, AllClassAttributes"]}
{"id": "C21", "title": "Decomposition partitions the rows", "statement": "DecomposeOnAttributeValues / DecomposeOnNumericAttributeThreshold split the rows so that every source row is in exactly one part, namely the part for its own value (respectively '1' iff value > threshold), with its values intact for the remaining attributes.", "quantifier": "all grids, attributes, thresholds, iteration orders", "why_tests_cant": "It ranges over all grids and class values; a lost or doubled row shows only for some distributions.", "anchors": ["base/util_instances.go: DecomposeOnAttributeValues, DecomposeOnNumericAttributeThreshold"]}
{"id": "C22", "title": "Train/test split partitions the data", "statement": "InstancesTrainTestSplit returns two grids whose rows together are exactly the source rows, each source row in exactly one of the two, for every sequence of random draws.", "quantifier": "all grids, proportions, random draws", "why_tests_cant": "The draws are random and the proportion is any number; a run samples one split.", "anchors": ["base/util_instances.go: InstancesTrainTestSplit"]}
{"id": "C23", "title": "Class distribution counts every row", "statement": "GetClassDistribution returns, for every class label, the number of rows with that label; the counts sum to the row count.", "quantifier": "all grids and labels", "why_tests_cant": "It ranges over all grids and label orders; counts that are off by one row show only for some of them.", "anchors": ["base/util_instances.go: GetClassDistribution, GetClassDistributionAfterSplit, GetClassDistributionAfterThreshold"]}
{"id": "C24", "title": "Categorical and binary-float class distributions count every row", "statement": "GetClassDistributionByCategoricalValue and GetClassDistributionByBinaryFloatValue return the number of rows per class value.", "quantifier": "all grids", "why_tests_cant": "It must hold for every grid; a grid of one row passes although all larger ones fail.", "anchors": ["base/util_instances.go: GetClassDistributionByCategoricalValue, GetClassDistributionByBinaryFloatValue"]}
{"id": "C25", "title": "InstancesAreEqual detects differences", "statement": "InstancesAreEqual(a,b) is true only if a and b have the same shape, compatible attributes and the same values.", "quantifier": "all pairs of grids", "why_tests_cant": "It ranges over all pairs of grids; tests compare a few that differ in obvious places.", "anchors": ["base/util_instances.go: InstancesAreEqual"]}
{"id": "C26", "title": "Compatibility checks are sound", "statement": "CheckStrictlyCompatible(a,b) is true iff the two grids have the same attributes in corresponding groups and positions, and never panics.", "quantifier": "all pairs of grids", "why_tests_cant": "It ranges over all pairs of grids, including pairs whose groups have the same name but different lengths.", "anchors": ["base/util_instances.go: CheckCompatible, CheckStrictlyCompatible"]}
{"id": "C27", "title": "Attribute set operations obey set laws", "statement": "AttributeIntersect(a,b) lists exactly the members of a equal to some member of b, AttributeDifference(a,b) exactly the others; both keep a's order and together they partition a.", "quantifier": "all attribute lists", "why_tests_cant": "The laws quantify over all lists of attributes, with repetitions and any order.", "anchors": ["base/util_attributes.go: AttributeIntersect, AttributeDifference, AttributeIntersectReferences, AttributeDifferenceReferences"]}
{"id": "C28", "title": "Attribute equality is an equivalence and implies compatibility", "statement": "Equals is reflexive, symmetric and transitive on attributes of the three types, and equal attributes are Compatible.", "quantifier": "all attributes", "why_tests_cant": "It quantifies over all triples of attributes and all lists of category values.", "anchors": ["base/float.go: Equals, Compatible", "base/categorical.go: Equals, Compatible", "base/binary.go: Equals, Compatible"]}
{"id": "C29", "title": "Categorical interning is a stable bijection", "statement": "GetSysValFromString assigns each distinct string a fixed code, never reuses or changes it under any later calls, and GetStringFromSysVal is its inverse; codes are 0..n-1 in first-seen order with no duplicates.", "quantifier": "all sequences of strings", "why_tests_cant": "Interning depends on the whole history of strings seen so far.", "anchors": ["base/categorical.go: GetSysValFromString, GetSysVal, GetStringFromSysVal, GetUsrVal"]}
{"id": "C30", "title": "Attribute serialisation round-trips", "statement": "DeserializeAttribute(SerializeAttribute(a)) succeeds and Equals a, for float, categorical and binary attributes.", "quantifier": "all attributes of the three types", "why_tests_cant": "All names, precisions and lists of values must survive; tests try a few, none with an empty list.", "anchors": ["base/serialize_attributes.go: SerializeAttribute, DeserializeAttribute", "base/*.go: MarshalJSON, UnmarshalJSON"]}
{"id": "C31", "title": "Serialised instances round-trip", "statement": "DeserializeInstances(SerializeInstances(g)) has the same dimensions, class attributes, attributes and cell values as g.", "quantifier": "all grids of 8-byte attributes", "why_tests_cant": "All shapes and contents must survive, for any way the reader hands over its bytes.", "anchors": ["base/serialize_instances.go: SerializeInstances, SerializeInstancesToTarWriter, DeserializeInstancesFromTarReader"]}
{"id": "C32", "title": "A named entry reads back what was written", "statement": "After writing entries under distinct keys to a classifier archive, reading a key returns exactly the bytes written under it, and an unwritten key is an error; if a key is written twice the most recent value is returned.", "quantifier": "all write sequences and keys", "why_tests_cant": "It depends on the whole history of entries written, including keys written twice.", "anchors": ["base/serialize.go: GetNamedFile, WriteBytesForKey, GetBytesForKey, Prefix"]}
{"id": "C33", "title": "Lazily filtered instances are consistent", "statement": "For every attribute and row, Get on LazilyFilteredInstances returns the filter's transform of the source value for filtered attributes and the source value unchanged for unfiltered ones, and MapOverRows delivers the same values as Get.", "quantifier": "all sources, filters, attributes and rows", "why_tests_cant": "It ranges over all filters, all sources and all orders of iteration.", "anchors": ["base/filtered.go: Get, MapOverRows, GetAttribute, AllAttributes, Size"]}
{"id": "C34", "title": "CSV row accounting", "statement": "Parsing a CSV of n data lines (plus an optional header) into instances yields exactly n rows, row i holding line i's fields, whichever of the parse functions is used.", "quantifier": "all record lists, with and without header", "why_tests_cant": "It ranges over all files, with and without header, of any length and width.", "anchors": ["base/csv.go: ParseCSVToInstances, ParseCSVToInstancesWithAttributeGroups, ParseCSVBuildInstancesFromReader, ParseCSVGetRows"]}
{"id": "C35", "title": "Confusion matrix accounts for every row", "statement": "GetConfusionMatrix(ref,gen) counts each row exactly once under (ref class, predicted class): the entries sum to the number of rows, and mismatched row counts give an error.", "quantifier": "all reference/prediction grids", "why_tests_cant": "It ranges over all pairs of label columns of any length.", "anchors": ["evaluation/confusion.go: GetConfusionMatrix"]}
{"id": "C36", "title": "Per-class counts are complementary", "statement": "For every class in the matrix TP+FN is the number of reference rows of that class, and TP+FP+FN+TN equals the total number of rows.", "quantifier": "all confusion matrices", "why_tests_cant": "The identity must hold for every matrix, also with labels that occur only as predictions.", "anchors": ["evaluation/confusion.go: GetTruePositives, GetFalsePositives, GetFalseNegatives, GetTrueNegatives"]}
{"id": "C37", "title": "Metrics lie in range", "statement": "Accuracy, precision, recall and F1 lie in [0,1] whenever defined; accuracy is 1 iff every prediction is right; F1 is the harmonic mean of precision and recall.", "quantifier": "all confusion matrices", "why_tests_cant": "Ranges of quotients fail only at extreme matrices, which tests do not contain.", "anchors": ["evaluation/confusion.go: GetAccuracy, GetPrecision, GetRecall, GetF1Score"]}
{"id": "C38", "title": "Micro-averaged precision counts all predictions", "statement": "GetMicroPrecision equals total true positives divided by total predictions, so for single-label data it equals accuracy.", "quantifier": "all confusion matrices, including classes that occur only as predictions", "why_tests_cant": "It needs matrices whose row and column labels differ, which test data do not have.", "anchors": ["evaluation/confusion.go: GetMicroPrecision, GetMicroRecall"]}
{"id": "C39", "title": "Cross-validation folds partition the data", "statement": "For every random fold assignment, the test sets over all folds partition the rows and each fold's training set is exactly the rows outside its test set.", "quantifier": "all row counts, fold counts and random assignments", "why_tests_cant": "Folds are drawn at random, and the numbers of rows and folds are unbounded.", "anchors": ["evaluation/cross_fold.go: GenerateCrossFoldValidationConfusionMatrices"]}
{"id": "C40", "title": "Neighbour heap keeps the maximum on top", "statement": "After any sequence of insertions and extractions the heap's maximum is its first element; extracting everything yields lengths in non-increasing order, and nothing is lost.", "quantifier": "all operation histories", "why_tests_cant": "The heap's shape depends on the whole history of insertions.", "anchors": ["kdtree/heap.go: insert, extractMax, maximum, size"]}
{"id": "C41", "title": "k-d tree holds every row exactly once", "statement": "Build(data) stores each input row exactly once with its row number, and each node splits its subtree: left values <= node value <= right values on the split feature.", "quantifier": "all data sets (ragged ones rejected)", "why_tests_cant": "It ranges over all data, including repeated points and even and odd sizes at every level.", "anchors": ["kdtree/kdtree.go: Build, buildHandle"]}
{"id": "C42", "title": "k-d tree search returns the k nearest rows", "statement": "Search(k, metric, target) returns the indices of k distinct rows such that no other row is strictly closer, agreeing with a linear scan.", "quantifier": "all data sets, targets and k, for metrics bounded below by per-coordinate distance", "why_tests_cant": "Pruning errors depend on the geometry of the data and the target and on k; most random inputs hide them.", "anchors": ["kdtree/kdtree.go: Search, searchHandle, searchAllNodes"]}
{"id": "C43", "title": "Nearest neighbours are really nearest", "statement": "The k rows selected by sorting the distance map are k rows of smallest distance: no unselected row is strictly closer than a selected one, in ascending order.", "quantifier": "all distance maps and k", "why_tests_cant": "It ranges over all data, targets and k; ties and the last place of the list decide.", "anchors": ["utilities/utilities.go: SortIntMap", "knn/knn.go: Predict"]}
{"id": "C44", "title": "k-NN votes by majority", "statement": "The predicted label is one with the maximal number of votes among the k neighbours (weighted: maximal total weight), and is the label of some neighbour, whatever the map order.", "quantifier": "all neighbour lists and map orders", "why_tests_cant": "Ties are resolved by map order, which differs from run to run, and k and the classes are unbounded.", "anchors": ["knn/knn.go: vote, weightedVote"]}
{"id": "C45", "title": "k-NN regression averages neighbours", "statement": "The KNN regressor's prediction lies between the smallest and largest of the neighbours' values and is their mean.", "quantifier": "all neighbour values, k >= 1", "why_tests_cant": "It ranges over all data and k, including k at and beyond the number of rows.", "anchors": ["knn/knn.go: KNNRegressor.Predict"]}
{"id": "C46", "title": "The optimised Euclidean kernel computes squared distance", "statement": "The optimised path's per-row accumulator over attribute groups equals the squared Euclidean distance over all the numeric columns and ranks rows the same way as the Euclidean distance.", "quantifier": "all train/prediction matrices", "why_tests_cant": "It ranges over vectors of every length; an error in the last stride shows only for some lengths.", "anchors": ["knn/euclidean.c: euclidean_distance", "knn/knn_opt_euclidean.go"]}
{"id": "C47", "title": "Decision tree prediction always ends at a trained class", "statement": "Predict on an ID3 tree terminates for every row and every map order, and returns a class that occurred in the data the tree was built from.", "quantifier": "all trees built from all training data; all prediction rows", "why_tests_cant": "It ranges over all trees and all rows, including values never seen in training.", "anchors": ["trees/id3.go: InferID3Tree, Predict"]}
{"id": "C48", "title": "Decision tree leaves agree with their training rows", "statement": "Each leaf's class is a most frequent class among the training rows that reach it, and a pure node is always a leaf with that class.", "quantifier": "all training data and rule generators", "why_tests_cant": "It ranges over all training sets and all depths of the tree.", "anchors": ["trees/id3.go: InferID3Tree", "base/util_instances.go: GetClassDistribution"]}
{"id": "C49", "title": "Pruning never reduces validation accuracy", "statement": "Prune keeps the collapsed version of a subtree only if it does not lower accuracy on the pruning data.", "quantifier": "all trees and pruning sets", "why_tests_cant": "It compares two trees on every set of validation rows; a sample where accuracy stays equal proves nothing.", "anchors": ["trees/id3.go: Prune"]}
{"id": "C50", "title": "Information gain is chosen maximally", "statement": "The rule generator picks an attribute with maximal gain (gain ratio) among the candidates, and returns no rule only when no candidate improves.", "quantifier": "all gain vectors / grids", "why_tests_cant": "Maximality compares with every candidate attribute and every threshold, on all data.", "anchors": ["trees/entropy.go: GetSplitRuleFromSelection", "trees/gr.go"]}
{"id": "C51", "title": "Gini impurity is computed from the distribution", "statement": "The Gini impurity of a class distribution is 1 - sum p_i^2: zero for a pure distribution.", "quantifier": "all distributions", "why_tests_cant": "It must hold for every distribution; one sample with the right value would not show it.", "anchors": ["trees/gini.go: computeGini, computeAverageGiniIndex"]}
{"id": "C52", "title": "Random tree considers only distinct real attributes", "statement": "The random rule generator selects the requested number of distinct non-class attributes, for all random draws, and terminates when enough exist.", "quantifier": "all draws", "why_tests_cant": "The attributes are drawn at random; whether the loop ends depends on the sequence of draws.", "anchors": ["trees/random.go: RandomTreeRuleGenerator.GenerateSplitRule"]}
{"id": "C53", "title": "CART splits partition the data", "statement": "Splitting data on (feature, threshold) sends each row, with its label, to exactly one side: left iff value < threshold; nothing is lost or reordered between data and labels.", "quantifier": "all data, features, thresholds", "why_tests_cant": "It ranges over all data, features and thresholds, including values equal to the threshold.", "anchors": ["trees/cart_classifier.go: classifierCreateSplit", "trees/cart_regressor.go: regressorCreateSplit"]}
{"id": "C54", "title": "Incremental CART split equals recomputed split", "statement": "Updating the split incrementally while scanning sorted thresholds yields the same left/right partition as splitting from scratch at that threshold.", "quantifier": "all sorted data, all threshold positions", "why_tests_cant": "The incremental update must agree with a recomputation at every step of every scan.", "anchors": ["trees/cart_classifier.go: classifierUpdateSplit, classifierReOrderData"]}
{"id": "C55", "title": "CART picks the impurity-minimising split", "statement": "The chosen split has the minimum average impurity over all candidate (feature, threshold) pairs.", "quantifier": "all data sets", "why_tests_cant": "Minimality compares with every feature and threshold, on all data and for each criterion.", "anchors": ["trees/cart_classifier.go: bestSplit", "trees/cart_regressor.go"]}
{"id": "C56", "title": "CART trees respect the depth limit and predict seen labels", "statement": "No root-to-leaf path is longer than maxDepth (if not -1); prediction terminates and returns a label that occurs in the training data.", "quantifier": "all data, depths and rows", "why_tests_cant": "It ranges over all data, depths and rows to predict, including trees whose root is not split.", "anchors": ["trees/cart_classifier.go: bestSplit, PredictSingle"]}
{"id": "C57", "title": "CART impurity measures are in range", "statement": "Gini impurity lies in [0,1), is 0 iff the labels are all equal, and the reported label is a mode; MSE/MAE are nonnegative and zero on constant targets.", "quantifier": "all label lists", "why_tests_cant": "The bounds must hold for every distribution of labels over any number of classes.", "anchors": ["trees/cart_classifier.go: computeGiniImpurityAndModeLabel", "trees/cart_regressor.go: computeMaeImpurityAndAverage"]}
{"id": "C58", "title": "Isolation trees partition the sample and respect the depth limit", "statement": "Each split of an isolation tree sends each row to exactly one side, and no path exceeds the maximum depth; path length is bounded accordingly.", "quantifier": "all data and random draws", "why_tests_cant": "Features and thresholds are drawn at random at every node.", "anchors": ["trees/isolation.go: splitData, buildTree, pathLength"]}
{"id": "C59", "title": "Anomaly scores lie in (0,1]", "statement": "The isolation forest anomaly score is 2^(-E/c), positive, at most 1, and strictly decreasing in the average path length.", "quantifier": "all path lengths and sub-sample sizes", "why_tests_cant": "Scores depend on every path length in a random forest of any size, including the empty forest.", "anchors": ["trees/isolation.go: anomalyScore, cFactor"]}
{"id": "C60", "title": "One-hot conversion sets exactly one output", "statement": "Converting an n-valued (n>2) categorical attribute with the float or binary conversion filter yields for every value exactly one output equal to 1, the one for that value; two-valued attributes map to a single 0/1 output.", "quantifier": "all categorical attributes and values", "why_tests_cant": "It ranges over all lists of category names; a collision needs two attributes whose names fit together.", "anchors": ["filters/binary_convert.go / float_convert.go: GetAttributesAfterFiltering, Transform"]}
{"id": "C61", "title": "Binary conversion of numbers marks non-zero values", "statement": "The binary conversion filter maps a float value to 1 exactly when it is non-zero.", "quantifier": "all floats", "why_tests_cant": "It ranges over all numbers; tests use data without negative ones.", "anchors": ["filters/binary.go: Transform"]}
{"id": "C62", "title": "Equal-width binning maps every value to a valid bin monotonically", "statement": "After training, Transform maps every value in [min,max] to a bin index within the declared bins, monotonically, with equal-width bins.", "quantifier": "all value sets, bin counts and values", "why_tests_cant": "It ranges over all reals, all ranges and all numbers of bins; the greatest value decides.", "anchors": ["filters/binning.go: Train, Transform"]}
{"id": "C63", "title": "ChiMerge preserves counts and terminates", "statement": "ChiMerge merging keeps the total number of examples per class and the interval order, terminates, and leaves intervals whose adjacent chi-square is significant or at most the minimum count.", "quantifier": "all frequency tables", "why_tests_cant": "It ranges over all frequency tables; how many intervals are merged at once depends on ties.", "anchors": ["filters/chimerge_funcs.go: chiMergeMergeZipAdjacent, chiMerge"]}
{"id": "C64", "title": "Bagging counts every model's vote once under every schedule", "statement": "For every interleaving of worker and collector goroutines, the tally used by BaggedModel.Predict equals one vote per model per row; the pipeline never deadlocks and always terminates.", "quantifier": "all numbers of models and CPUs, all schedules", "why_tests_cant": "Schedules are unbounded in number and a test run samples one of them.", "anchors": ["meta/bagging.go: BaggedModel.Predict"]}
{"id": "C65", "title": "Bagging predicts a majority class", "statement": "For every row the predicted class is one with the maximal number of model votes, whatever the map order.", "quantifier": "all votes and map orders", "why_tests_cant": "Ties are resolved by map order and votes arrive in the order of the schedule.", "anchors": ["meta/bagging.go: BaggedModel.Predict"]}
{"id": "C66", "title": "Bagging selects distinct features", "statement": "With RandomFeatures=k>0 each model is trained on k pairwise distinct non-class attributes plus the class attributes, for all random draws; with k=0 on all.", "quantifier": "all draws and attribute sets", "why_tests_cant": "The features are drawn at random; whether the loop ends depends on the sequence of draws.", "anchors": ["meta/bagging.go: generateTrainingAttrs", "ensemble/randomforest.go: Fit"]}
{"id": "C67", "title": "One-vs-all chooses a most confident class", "statement": "OneVsAllModel.Predict assigns each row a class whose classifier's output is maximal among all classes whenever some output is positive, and never an index outside the trained classes.", "quantifier": "all outputs and class counts", "why_tests_cant": "It ranges over all confidences, including ties, negative ones and NaN.", "anchors": ["meta/one_v_all.go: Predict, Transform"]}
{"id": "C68", "title": "Naive Bayes fits any binary data", "statement": "BernoulliNBClassifier.Fit succeeds on every dataset of binary features with one class attribute and stores for each class and feature the Laplace-smoothed fraction (docs with feature + 1)/(docs in class + 1), which lies in (0,1].", "quantifier": "all binary data sets", "why_tests_cant": "It ranges over all binary data, including classes whose rows have no feature at all.", "anchors": ["naive/bernoulli_nb.go: Fit"]}
{"id": "C69", "title": "Naive Bayes predicts a class of maximal score", "statement": "PredictOne returns a trained class whose score is maximal, independent of map order up to ties, and never takes log of zero.", "quantifier": "all fitted models and vectors", "why_tests_cant": "The classes come from a map, whose order differs from run to run, and ties depend on it.", "anchors": ["naive/bernoulli_nb.go: PredictOne"]}
{"id": "C70", "title": "Perceptron predictions are written to their own row", "statement": "AveragePerceptron.Predict writes for every row i the class given by the score of row i.", "quantifier": "all data and weights", "why_tests_cant": "The position of a written prediction matters for every row and every sign of the score.", "anchors": ["perceptron/average.go: Predict, score, NewAveragePerceptron"]}
{"id": "C71", "title": "Network weight accessors are faithful and training keeps the topology", "statement": "SetWeight/GetWeight and SetBias/GetBias address single entries, input biases stay 0, and UpdateWeights never creates a connection where there was none nor changes self-connections.", "quantifier": "all networks, indices and update sequences", "why_tests_cant": "It ranges over all networks and all sequences of weight settings and training steps.", "anchors": ["neural/network.go: SetWeight, GetWeight, SetBias, GetBias, UpdateWeights, UpdateBias"]}
{"id": "C72", "title": "Multi-layer net reads its prediction from the output layer", "statement": "MultiLayerNet.Predict chooses the class whose output neuron has the greatest activation.", "quantifier": "all layer configurations", "why_tests_cant": "It ranges over all configurations of layers, all random starts and all orders of the class attributes.", "anchors": ["neural/layered.go: Fit, Predict"]}
{"id": "C73", "title": "DBSCAN puts each point in at most one cluster and never fails", "statement": "DBSCAN returns without panicking for every distance matrix, eps and minimum count, and no point belongs to two clusters; every cluster has at least MinCount points.", "quantifier": "all distance matrices and parameters", "why_tests_cant": "Clusters depend on the neighbourhoods of all points in any dimension; failures need particular shapes.", "anchors": ["clustering/dbscan.go: DBSCAN, regionQuery"]}
{"id": "C74", "title": "DBSCAN bit counting is exact", "statement": "BitCount(n) is the number of one bits of n, so BitCount(regionQuery(p)) is the number of points within eps of p.", "quantifier": "all big integers", "why_tests_cant": "It must hold for sets of any size; tests count a few small ones.", "anchors": ["clustering/dbscan.go: BitCount, regionQuery"]}
{"id": "C75", "title": "ClusterMap inversion and equality are correct", "statement": "Invert succeeds iff no point is in two clusters (or twice in one) and then maps each point to its cluster; Equals(a,b) is true iff the clusters of one are a relabelling of the other's.", "quantifier": "all cluster maps and iteration orders", "why_tests_cant": "It ranges over all maps between clusters and points, including empty clusters.", "anchors": ["clustering/clustering.go: Invert, Equals"]}
{"id": "C76", "title": "EM prediction assigns each row to exactly one component", "statement": "EM's Predict partitions the rows over component indices in [0,n_comps) by maximal log-probability.", "quantifier": "all data and parameters", "why_tests_cant": "It ranges over all densities, including ties and infinitely small ones.", "anchors": ["clustering/em.go: Predict, estimateLogProb, where, vectorMin, vectorMax"]}
{"id": "C77", "title": "Linear regression back-substitution solves the triangular system", "statement": "The coefficients computed from the QR factors satisfy R*beta = Q^T y exactly (in exact arithmetic) when R has non-zero diagonal, hence the normal equations; too few rows give an error.", "quantifier": "all factors of any size", "why_tests_cant": "The system has any dimension; an index error cancels on small or symmetric systems.", "anchors": ["linear_models/linear_regression.go: Fit, Predict"]}
{"id": "C78", "title": "liblinear feature encoding is faithful and the same in training and prediction", "statement": "The sparse vectors passed to liblinear for training and prediction represent exactly the given dense row.", "quantifier": "all feature vectors", "why_tests_cant": "It ranges over all rows; zero and negative entries are treated apart.", "anchors": ["linear_models/liblinear.go: convert_vector, convert_features"]}
{"id": "C79", "title": "SVC solver selection is total and consistent", "statement": "SetKindFromStrings accepts exactly the documented loss/penalty combinations, sets the matching solver and forces the required dual/primal form.", "quantifier": "all strings and flags", "why_tests_cant": "Parameters are strings, so a missed combination is one among infinitely many inputs.", "anchors": ["linear_models/linearsvc.go: SetKindFromStrings"]}
{"id": "C80", "title": "PCA centring removes column means", "statement": "Fit subtracts the column means so that every column of the factorised matrix sums to zero, and Transform has the documented output dimensions.", "quantifier": "all matrices", "why_tests_cant": "It ranges over matrices of every shape; wide and tall ones behave differently.", "anchors": ["pca/pca.go: mean, matrixSubVector, Fit, Transform"]}
{"id": "C81", "title": "Distances are metrics", "statement": "Euclidean, Manhattan and Chebyshev distances are nonnegative, symmetric, zero iff the vectors are equal, and satisfy the triangle inequality; shape mismatch panics.", "quantifier": "all vectors of any dimension", "why_tests_cant": "The triangle inequality and symmetry quantify over all triples of real vectors of any length.", "anchors": ["metrics/pairwise/euclidean.go", "metrics/pairwise/manhattan.go", "metrics/pairwise/chebyshev.go"]}
{"id": "C82", "title": "Similarity measures are in range", "statement": "Cosine distance lies in [0,2] for nonzero vectors and is symmetric; Canberra distance is symmetric, nonnegative and at most the dimension; the RBF kernel (gamma>0) is in (0,1] and 1 exactly on equal vectors.", "quantifier": "all vectors", "why_tests_cant": "Bounds on similarities quantify over all pairs of real vectors of any length.", "anchors": ["metrics/pairwise/cosine.go", "metrics/pairwise/cranberra.go", "metrics/pairwise/rbf_kernel.go"]}
{"id": "C83", "title": "Polynomial kernel distance vanishes on equal vectors", "statement": "PolyKernel.Distance(x,x) = 0 and the inner product is symmetric.", "quantifier": "all vectors and degrees", "why_tests_cant": "It quantifies over all real vectors and degrees.", "anchors": ["metrics/pairwise/poly_kernel.go"]}
{"id": "C84", "title": "Predictions are read back as written", "statement": "A prediction vector generated for data with one categorical class has as many rows as the data; after any sequence of SetClass calls, with known or new labels, GetClass of a row returns the label last set for it, and rows never set read as the first label of the class.", "quantifier": "all grids with one categorical class, all sequences of (row, label) writes", "why_tests_cant": "Labels are interned as they are written, so earlier rows must survive any later writes; a test can only try some sequences.", "anchors": ["base/util_instances.go: GeneratePredictionVector, SetClass, GetClass", "base/categorical.go: GetSysValFromString"]}
{"id": "C85", "title": "ChiMerge puts a value into its interval", "statement": "The filtered column shows for every number the interval of the trained table that contains it: the last one whose lower end is at or below the number (the first interval also takes smaller numbers), with the same rows and all other columns unchanged.", "quantifier": "all trained tables, numbers and data sets", "why_tests_cant": "A test can only try some numbers and tables; the ends of the intervals come from the data.", "anchors": ["filters/chimerge.go: Transform, GetAttributesAfterFiltering"]}
{"id": "C86", "title": "ChiMerge is trained on the examples of the data", "statement": "ChiMergeFilter.Train computes for each chosen column the merged frequency table of exactly the pairs (number, class) found in the rows of the training data, whatever the order of the rows.", "quantifier": "all data sets, row orders and significance levels", "why_tests_cant": "Training must pair each number with the class of its own row for every order of the rows.", "anchors": ["filters/chimerge.go: Train, chiMerge", "filters/chimerge_funcs.go: ChiMBuildFrequencyTable", "base/view.go: MapOverRows"]}
{"id": "C87", "title": "DBSCAN finds the density-connected groups", "statement": "Two points are in the same cluster returned by DBSCAN exactly if some core point (a point with at least MinCount points within Eps) reaches both by steps of at most Eps, each but the last ending at a core point.", "quantifier": "all distance matrices, Eps, MinCount and orders of the rows", "why_tests_cant": "The outcome depends on the order in which points are met; tests fix one order and a few point sets.", "anchors": ["clustering/dbscan.go: DBSCAN, regionQuery"]}
{"id": "C88", "title": "Fitting by expectation maximisation succeeds and ends at fitted parameters", "statement": "ExpectationMaximization.Fit on data with at least as many rows as components returns without panicking (as long as the normal distributions exist); initial means lie within the range of each column; every step sets the mean of a component to the average of the rows it is most likely for; the parameters returned come from a step that moved the means by less than eps.", "quantifier": "all data, numbers of components and random draws", "why_tests_cant": "Which component a row is assigned to depends on the random draws and on every earlier step.", "anchors": ["clustering/em.go: Fit, maximization, estimateLogProb, initMeans, where"]}
{"id": "C89", "title": "Each model of an ensemble is trained on a sample of the rows", "statement": "Bagging trains each model on the attributes selected for it and on as many rows as the data has, drawn with replacement: reading a cell of the training data, or iterating over its rows, gives the rows that were drawn.", "quantifier": "all data sets, selections of attributes and random draws", "why_tests_cant": "The rows are drawn at random, and models read their training data in different ways.", "anchors": ["meta/bagging.go: generateTrainingInstances", "base/util_instances.go: SampleWithReplacement", "base/view.go: MapOverRows"]}
{"id": "C90", "title": "An ensemble reports the error of a model", "statement": "If one of the models of a BaggedModel returns an error from Predict, the error reaches the caller of BaggedModel.Predict; the program does not panic.", "quantifier": "all ensembles, all schedules", "why_tests_cant": "The error occurs in another goroutine, at a time that depends on the schedule.", "anchors": ["meta/bagging.go: BaggedModel.Predict"]}
{"id": "C91", "title": "One-vs-all names classes as in training", "statement": "On data read separately, whose class attribute has the name and values of the one in training, OneVsAllModel.Predict gives each row the name of a trained class of greatest output.", "quantifier": "all models and data sets whose class has the same name and values", "why_tests_cant": "The order in which values are listed depends on the file each data set is read from.", "anchors": ["meta/one_v_all.go: Predict, generateAttributes", "base/filtered.go: NewLazilyFilteredInstances"]}
{"id": "C92", "title": "Activating a layered network computes its feed-forward values", "statement": "If the neurons of a Network are arranged on levels (inputs passing on their value, connections only from lower to higher levels), Activate with at least as many iterations as levels gives every neuron its function of the weighted sum of the values of the neurons it hears plus its bias. The result does not depend on what other neurons held before nor on the number of further iterations. A new network whose weights are only set from lower to higher levels is so arranged whatever else is called, training included.", "quantifier": "all networks and level assignments, all inputs, all numbers of iterations, all histories of calls on a new network", "why_tests_cant": "The claim ranges over every topology, depth and history of training steps; a test fixes one network and one input.", "anchors": ["neural/network.go: NewNetwork, Activate, SetWeight, UpdateWeights, UpdateBias"]}
{"id": "C93", "title": "The errors a network back-propagates are the gradient of its squared error", "statement": "For a layered Network whose neuron functions have Backward(Forward(z)) equal to the derivative of Forward at z, Error returns errors such that the derivative of half the squared output error by any weight is minus the error of the target times the value of the source, and by any bias minus the error of the neuron. Hence a training step (UpdateWeights, UpdateBias) with a small enough learning rate lowers the squared error unless all errors are 0. Sigmoid and Linear meet the condition.", "quantifier": "all layered networks, inputs, expected outputs and directions of change, over the real numbers", "why_tests_cant": "A derivative is a limit over all step sizes, and the claim is for every topology and input; numerical tests compare a few difference quotients.", "anchors": ["neural/network.go: Error, UpdateWeights, UpdateBias", "neural/funcs.go: Sigmoid, Linear, SoftplusRectifier"]}
{"id": "C94", "title": "Linear SVM and logistic regression train one against the rest and predict the side", "statement": "LinearSVC.Fit and LogisticRegression.Fit hand the solver, for every label that occurs in the float class column, every training row exactly once with whether it has that label, with the penalty C times the label's weight; Predict gives every row the label whose weight vector has the greatest scalar product with the row (with two labels: the first exactly if the product is positive).", "quantifier": "all data sets with one float class, all row orders, any number of labels, any numerical solver", "why_tests_cant": "The grouping of rows by label is a counting sort over any number of rows and labels; a fixed data set shows one permutation only.", "anchors": ["linear_models/linearsvc.go: Fit, Predict", "linear_models/logistic.go: Fit, Predict", "linear_models/linear.cpp: group_classes, train, predict_values"]}
{"id": "C95", "title": "Class weights of a linear SVM are applied as configured", "statement": "ClassWeights given by the user multiply the penalty of the label with that index; with WeightClassesAutomatically the weight of a class is one over the number of its rows; otherwise all weights are 1.", "quantifier": "all data sets, all weight vectors", "why_tests_cant": "The weights depend on the counts in the whole data set, and a wrong count changes a trained model only by degrees.", "anchors": ["linear_models/linearsvc.go: Fit", "linear_models/util.go: generateClassWeightVectorFromDist, generateClassWeightVectorFromFixed", "linear_models/linear.cpp: train"]}
{"id": "C96", "title": "A multi-layer net trains until its error is small or its iterations are used up", "statement": "MultiLayerNet.Fit goes over all rows at most MaxIterations times, and stops earlier only if the mean squared error on the training data is below Convergence.", "quantifier": "all data sets, layer sizes, random starts, learning rates and bounds", "why_tests_cant": "Whether training stops depends on the random start and on every step before; a test sees only that Fit returns.", "anchors": ["neural/layered.go: Fit"]}
{"id": "C97", "title": "Class probabilities of a decision tree are the shares of the training rows at the leaf", "statement": "ID3DecisionTree.PredictProba returns, for a grid of one row, each label of the training rows at the leaf the row reaches, once, with its share of these rows as probability; the probabilities add up to one, are in descending order, and the class Predict gives has the greatest. A grid of more rows makes it panic.", "quantifier": "all training data, rule generators, rows to predict (also with values never seen in training) and orders of the maps", "why_tests_cant": "The leaf depends on every test on the way, the order on ties and maps, and the shares on all training rows; a test checks one tree.", "anchors": ["trees/id3.go: PredictProba, ClassesProba"]}
{"id": "C98", "title": "A decision tree that is saved and loaded predicts the same", "statement": "Saving an ID3 tree or a random tree (pruned or not) to a file succeeds, loading the file succeeds, and the loaded tree predicts the same class for every row and the same class probabilities as the tree that was saved.", "quantifier": "all trees, class attributes, data to predict, orders of the maps and prefixes inside another model's file", "why_tests_cant": "A tree is a recursive document of any depth with any names of branches; a test saves one tree and compares a few predictions.", "anchors": ["trees/id3.go: DecisionTreeRule.MarshalJSON, UnmarshalJSON, DecisionTreeNode.SaveWithPrefix, LoadWithPrefix, ID3DecisionTree.Save, Load", "trees/random.go: RandomTree.Save, Load", "base/serialize.go: CreateSerializedClassifierStub, ReadSerializedClassifierStub"]}
{"id": "C99", "title": "Saved ensembles load back and predict the same", "statement": "Saving a bagged model whose classifiers can be saved, and loading it into a bagged model with the same number of classifiers, restores every classifier, the number of features and the attributes selected for each classifier. A random forest that is saved and loaded predicts the same as the one that was saved, for every grid and under every schedule of its goroutines.", "quantifier": "every bagged model and prefix, every forest, every grid to predict for, every number of processors and schedule, every order of the maps", "why_tests_cant": "A test saves one forest and compares a few predictions; it cannot range over all trees, selections of attributes, names of entries in the archive and schedules, nor over the size of the forest that the file is loaded into.", "anchors": ["meta/bagging.go: BaggedModel.SaveWithPrefix, LoadWithPrefix, Save, Load", "ensemble/randomforest.go: RandomForest.Save, SaveWithPrefix, Load, LoadWithPrefix", "base/serialize.go: WriteInstancesForKey, GetInstancesForKey", "base/serialize_attributes.go: ReplaceDeserializedAttributeWithVersionFromInstances"]}
{"id": "C100", "title": "A naive Bayes classifier that is saved and loaded predicts the same", "statement": "Saving a trained Bernoulli naive Bayes classifier and loading the file gives a classifier that predicts, for every data set, the same classes as the one that was saved (and the same error or panic where that one fails). Saving at a prefix leaves the file open, so that the classifier can be part of a saved ensemble.", "quantifier": "Every trained classifier, whatever its classes, counts, attributes and probabilities; every prefix and every other contents of the file; every data set to predict, in memory, seen through views or filtered lazily; every order of iteration over maps.", "why_tests_cant": "A round-trip test saves one classifier trained on one data set in memory. It cannot show that every probability and attribute survives, nor that looking attributes up by address in a lazily filtered data set goes wrong for a loaded classifier.", "anchors": ["naive/bernoulli_nb.go:Save, SaveWithPrefix, Load, LoadWithPrefix, Predict", "base/serialize.go:WriteAttributesForKey, GetAttributesForKey", "base/serialize_attributes.go:ReplaceDeserializedAttributesWithVersionsFromInstances", "base/filtered.go:GetAttribute"]}
{"id": "C101", "title": "A nearest neighbours classifier that is saved and loaded predicts the same", "statement": "Saving a nearest neighbours classifier and loading the file gives a classifier with the same distance function, search algorithm, number of neighbours, weighting and optimisation setting, whose training data has the same attributes, class and values; it predicts, for every data set, what the saved one predicts (and fails where that one fails).", "quantifier": "Every classifier: both search algorithms, all distance functions, any number of neighbours, weighted or not; every training data set, in memory or a view, whatever its row order; every data set to predict; every order of iteration over maps, and every sort by distance.", "why_tests_cant": "A round-trip test saves one classifier trained on one data set in memory with one map order. It cannot show that ties between equally distant rows, row reordering by views and attribute reordering in the file never change a prediction.", "anchors": ["knn/knn.go:Save, SaveWithPrefix, Load, LoadWithPrefix, GetMetadata, Predict, canUseOptimisations", "base/serialize.go:WriteInstancesForKey, GetInstancesForKey"]}
{"id": "C102", "title": "Classifiers that can be saved can be saved as members of an ensemble", "statement": "If each classifier of a bagged model can be saved to a file of its own, the bagged model can be saved, and loading the file restores every member; a classifier that is saved at a place inside a file can be loaded from that place.", "quantifier": "Every bagged model, of any kind and number of classifiers, also bagged models of bagged models; every training data set, every selection of attributes.", "why_tests_cant": "Each classifier type is tested in a file of its own. Whether a type works inside an ensemble depends on what its save method leaves behind in the shared file; a test has to pick the combination of types, and the failing ones are not the ones tested.", "anchors": ["meta/bagging.go:SaveWithPrefix, LoadWithPrefix, Save, Load", "knn/knn.go:SaveWithPrefix, LoadWithPrefix", "naive/bernoulli_nb.go:SaveWithPrefix, LoadWithPrefix", "base/serialize.go:Close, ReadMetadataAtPrefix"]}
{"id": "C103", "title": "A saved linear support vector machine, and a saved one-vs-all model, predicts the same when it is loaded", "statement": "Saving a trained linear support vector machine and loading the file gives one that decides about every row as before. Saving a one-vs-all model, or the support vector machine for several classes that is built on it, and loading the file restores the class values, the filters and a classifier for each class, and the loaded model makes the same predictions for all data.", "quantifier": "Every model, every number of features and classes, every training data set whose attributes survive being written, every data set to predict, every order of the maps involved.", "why_tests_cant": "Tests save one model and compare a few predictions. Whether a prediction can change depends on digits lost in the text of the weights, on the order in which maps are written and on attributes being found again by their content; a row whose score is near zero, or a class attribute that changed between training and saving, is needed to see a failure.", "anchors": ["linear_models/linearsvc.go:Save, SaveWithPrefix, Load, LoadWithPrefix, GetMetadata", "linear_models/liblinear.go:Export, Load", "linear_models/linear.cpp:save_model, load_model", "meta/one_v_all.go:SaveWithPrefix, LoadWithPrefix, Save, Load", "ensemble/multisvc.go:Save, SaveWithPrefix, LoadWithPrefix"]}
{"id": "C104", "title": "Reading an ARFF file gives the table that the file holds, or an error", "statement": "Parsing a dense ARFF file gives a column for each declared attribute in the order of the header, the last of which is the class, and a row for each record after the data marker, holding its fields. A field that is not a number in a real column, or not a declared value in a nominal one, is an error; so is a record that does not fit the header. No data is lost without an error, and no file makes the parser panic.", "quantifier": "Every text, every header, every number and length of lines, every choice of parsing function for numbers and of lower case letters.", "why_tests_cant": "Tests read two or three well-formed files. Which characters a value may start with, how long a line may be, how many fields a record has and where spaces stand all decide whether rows are counted and read alike, and the failures are silent.", "anchors": ["base/arff.go:ParseDenseARFFToInstances, ParseARFFGetRows, ParseARFFGetAttributes, ParseDenseARFFBuildInstancesFromReader", "base/csv.go:ParseCSVEstimateFilePrecisionFromReader"]}
{"id": "C105", "title": "A table that is written to an ARFF file and read again is the same table", "statement": "Writing a data set as a dense ARFF file and parsing the file gives a data set with the same columns in the same order, the same class and the same rows. Categorical cells have the same value and numeric cells the number that their text stands for. If the names or values cannot be told from the file, writing or reading is an error.", "quantifier": "Every data set, view or filtered data set, every attribute names and values, every relation name, every formatting and parsing function for numbers, every number of rows.", "why_tests_cant": "Tests compare one file with one expected file. Names and values with spaces, commas, quotes or special first characters, long lines, binary columns and several classes never occur in them.", "anchors": ["base/arff.go:SerializeInstancesToDenseARFF, SerializeInstancesToWriterDenseARFFWithAttributes, ParseDenseARFFToInstances, ParseARFFGetAttributes"]}
{"id": "C106", "title": "The precision of a file is the largest number of decimals in its data", "statement": "When a CSV or ARFF file is read, numeric attributes are given a precision, with which their values are shown and written. The precision is the number of decimals that the most precise number in the data has, so that writing the data again loses nothing.", "quantifier": "Every text, every number of lines and fields, every notation of the numbers.", "why_tests_cant": "Tests check the estimate for one file. It depends on which characters stand between numbers and on the position of the most precise number in the file.", "anchors": ["base/csv.go:ParseCSVEstimateFilePrecision, ParseCSVEstimateFilePrecisionFromReader", "base/arff.go:ParseARFFGetAttributes"]}
{"id": "C107", "title": "A table written to a CSV file is read back as the same table", "statement": "Instances are written to a CSV file with SerializeInstancesToCSV and read with ParseCSVToInstances. The result has the same columns and rows, and every cell says what it said, whatever commas, quotes, spaces and line breaks are in the names and values.", "quantifier": "Every table, view or filtered table, every name and text, every number of rows and columns.", "why_tests_cant": "Tests write one file of plain words and numbers. Whether quoting and reading agree depends on every combination of characters, and the kind of a column on the text in its first row.", "anchors": ["base/serialize_instances.go:SerializeInstancesToCSV, SerializeInstancesToCSVStream", "base/csv.go:ParseCSVToInstances, ParseCSVToInstancesFromReader, ParseCSVSniffAttributeTypesFromReader, ParseCSVBuildInstancesFromReader"]}
{"id": "C108", "title": "A CSV file read with a template has the template's columns, classes and codes", "statement": "A test file is read with ParseCSVToTemplatedInstances and the training instances as template. The result has exactly the columns and class columns of the template and one row for each line. Every field is in the column of its name, whatever the order of the columns in the file. A categorical value that the template knows has the same code in both, so a classifier trained on the template can be used on the result. Columns the file lacks are zero.", "quantifier": "Every template built by adding attributes and rows, every file with columns of the template in any order, every order in which Go walks the groups.", "why_tests_cant": "Tests read one file with its own copy as template. Whether columns and codes agree depends on every order of columns and groups and every set of values.", "anchors": ["base/csv.go:ParseCSVToTemplatedInstances, ParseCSVToTemplatedInstancesFromReader, ParseMatchAttributes, ParseCSVBuildInstancesFromReader", "base/util_instances.go:CopyDenseInstances"]}
{"id": "C109", "title": "A CSV file read with attribute groups has every column in the group asked for", "statement": "ParseCSVToInstancesWithAttributeGroups is given groups for some columns, class groups, and attributes to use for some columns. The result has the columns of the file, with the given attributes in place of the guessed ones, and one row for each line. Every column with a group is in that group and no other column is. The class columns are those with a class group. Every field is in its column, empty fields are zero.", "quantifier": "Every readable file with or without header, every set of groups, class groups and given attributes, every order in which Go walks the groups.", "why_tests_cant": "Tests read one file with one set of groups. What the grid holds depends on the names of the groups, the kinds of the columns and the order of a Go map.", "anchors": ["base/csv.go:ParseCSVToInstancesWithAttributeGroups, ParseCSVToInstancesWithAttributeGroupsFromReader, ParseCSVBuildInstancesFromReader", "base/dense.go:CreateAttributeGroup, AddAttributeToAttributeGroup, AddAttribute, AddClassAttribute"]}
{"id": "C110", "title": "Rows converted to matrices hold the numbers of the given columns", "statement": "ConvertRowToMat64(attrs, grid, r) returns a matrix of one row with the numbers that the columns attrs have in row r. ConvertAllRowsToMat64(attrs, grid) returns one such matrix for each row of the grid, the same as ConvertRowToMat64 gives. All rows have the numbers in one order, which is the order of attrs if Go's sort leaves elements that compare as equal in place. An attribute that is not numeric is an error, an attribute that the grid lacks is a panic.", "quantifier": "Every grid whose cells are well-formed, every list of attributes, every row.", "why_tests_cant": "Tests convert rows of one file. The order of the numbers depends on a sort that compares nothing, and the two functions are written separately.", "anchors": ["base/conversion.go:ConvertRowToMat64, ConvertAllRowsToMat64, checkAllAttributesAreFloat", "base/util_attributes.go:ResolveAttributes"]}
{"id": "C111", "title": "Instances over a matrix show the matrix", "statement": "InstancesFromMat64(rows, cols, data) is a data set with cols numeric attributes named 0 to cols-1 and the given number of rows. GetAttribute finds the column by the name, and is an error for any attribute that equals none of them. Get and MapOverRows return the numbers of the matrix, unchanged. The class attributes are those made class attributes by AddClassAttribute and not removed since, each once.", "quantifier": "Every matrix at least as large as the given numbers, every cell, every list of columns to iterate over, every sequence of calls that changes the class attributes, every order of Go's map.", "why_tests_cant": "Tests read one small matrix. Which columns are class attributes depends on the history of calls.", "anchors": ["base/mat.go:InstancesFromMat64, GetAttribute, AllAttributes, AddClassAttribute, RemoveClassAttribute, AllClassAttributes, Get, MapOverRows, Size"]}
{"id": "C112", "title": "A data frame becomes a data set with the same names, rows, texts and numbers", "statement": "ConvertDataFrameToInstances(df, classAttrIndex) returns a data set with one attribute for each column of the data frame under its name, one row for each row, and the chosen column as its only class attribute. Columns of strings are categorical, their values are the strings in them, each once, and every cell reads as the string of the frame. Other columns are numeric and hold the numbers of the frame.", "quantifier": "Every data frame with distinct names and columns of equal length, every class index, every type of value including missing ones.", "why_tests_cant": "Tests convert one small frame. The types are decided by the first row, every number passes through a text, and categories are collected over all rows.", "anchors": ["base/dataframe_go.go:ConvertDataFrameToInstances"]}
{"id": "C113", "title": "A classifier is not loaded from the file of another kind of classifier", "statement": "Calling Load on a file that was saved by another kind of classifier returns an error and never gives a classifier. The kinds are k nearest neighbours, Bernoulli naive Bayes, decision trees (ID3 and random trees share a format, and load each other's files with the same result), bagged models, random forests, linear SVCs, one-vs-all models and multi-class linear SVCs.", "quantifier": "Every pair of kinds, every classifier that can be saved, every classifier that the file is loaded into.", "why_tests_cant": "Tests only load what the same kind saved. The label in most files is never looked at, and three kinds of files carry the label of another kind, so it depends on the names of all entries of all files.", "anchors": ["base/serialize.go:ReadSerializedClassifierStub", "knn/knn.go:LoadWithPrefix", "naive/bernoulli_nb.go:Save", "trees/random.go:Save", "ensemble/randomforest.go:Save", "ensemble/multisvc.go:LoadWithPrefix", "meta/bagging.go:LoadWithPrefix", "meta/one_v_all.go:LoadWithPrefix", "linear_models/linearsvc.go:LoadWithPrefix"]}
{"id": "C114", "title": "The printed text of a data set shows its attributes, class attributes and rows", "statement": "String of a data set gives the numbers of rows and attributes, one line for each attribute with a star in front of exactly the class attributes, one line for each of the first rows (thirty; five for lazily filtered data) with the texts of all its cells in the order of the attributes, and how many rows were left out. RowString of a row gives the texts of its cells with one space in between. Printing never fails.", "quantifier": "Every data set made by any history of calls, every view of it, every lazily filtered data set, instances over a matrix after any calls; every row; every order the attributes may be sorted into.", "why_tests_cant": "The number of rows shown, the stars and the spaces depend on the attributes, their groups, the class attributes and the kind of data set.", "anchors": ["base/dense.go:String", "base/dense.go:RowString", "base/view.go:String", "base/view.go:RowString", "base/filtered.go:String", "base/filtered.go:RowString", "base/mat.go:String", "base/mat.go:RowString", "base/fixed.go:appendToRowBuf", "base/bag.go:appendToRowBuf"]}
{"id": "C115", "title": "The printed evaluation shows every row, count and metric", "statement": "ShowConfusionMatrix prints a table with a line for each label of the reference rows and a column for each label, whose entries are how many rows have the one label and were predicted the other, so that all rows are in the table. GetSummary prints for each label the rows rightly predicted, the rows wrongly predicted as it, the rows that neither have it nor were predicted it, the precision, the recall and the F1 score, and below the share of right predictions.", "quantifier": "Every pair of tables with the same number of rows, every order in which the labels come.", "why_tests_cant": "The labels come in the random order of a map, and which rows are shown depends on which labels occur as reference and which as prediction.", "anchors": ["evaluation/confusion.go:ShowConfusionMatrix", "evaluation/confusion.go:GetSummary", "evaluation/confusion.go:GetConfusionMatrix"]}
{"id": "C116", "title": "Fitting an ID3 tree trains on one part of the rows and prunes with the other", "statement": "Fit with a pruning share splits the rows into two parts, builds a tree from the one and prunes it with the other. No row is in both parts and none is lost. The tree fits the rows of the first part before and after pruning, the pruned tree predicts at least as many rows of the second part rightly as the tree before pruning, and it predicts only labels of rows of the first part. The caller's data are left as they are. Fit without a pruning share builds the tree from all rows.", "quantifier": "Every table any history of calls has made, every shuffle and draw of the split, every rule generator that picks an attribute, every map order, every table to predict.", "why_tests_cant": "The parts are drawn at random, and the tree and what pruning keeps depend on all rows of both parts.", "anchors": ["trees/id3.go:ID3DecisionTree.Fit", "trees/id3.go:Prune", "base/util_instances.go:InstancesTrainTestSplit"]}
{"id": "C117", "title": "The printed CART tree shows every test and every prediction", "statement": "String on a fitted CART classifier or regressor gives a text from which the tree can be read in only one way: which feature is compared with which threshold, and what is predicted on each side. Two trees with the same text give the same predictions for every row.", "quantifier": "Every pair of fitted trees of any shape and depth, every row to predict.", "why_tests_cant": "Trees have any shape and the printed sides come in different orders, so that the text can be read in one way only is a claim about all pairs of trees.", "anchors": ["trees/cart_classifier.go:String", "trees/cart_classifier.go:classifierPrintTreeFromNode", "trees/cart_regressor.go:regressorPrintTreeFromNode"]}
{"id": "C118", "title": "The printed ID3 tree shows every rule, branch and class", "statement": "String on an ID3 tree gives the same text whatever the iteration order of the maps of children, and from the text the tree can be read in only one way: the rules, the names of their branches and the classes at the ends. Two trees with the same text give the same predictions for every row.", "quantifier": "Every pair of trees of any shape and depth with any names, every map order, every row to predict.", "why_tests_cant": "Trees have any shape and names are any strings, so that the text can be read in one way only is a claim about all pairs of trees. Map order is random.", "anchors": ["trees/id3.go:getNestedString", "trees/id3.go:DecisionTreeRule.String", "trees/id3.go:ID3DecisionTree.String"]}
{"id": "C119", "title": "Tables do not share storage", "statement": "Whatever a program does with any number of tables, views, filtered grids, copies and the byte slices it was handed: each call has on the table it names exactly the effect it has on plain values, even when the slice passed to Set is a window into the storage being written, and a table changes only through calls on that table and through writes into slices which that table handed out. Everything else leaves it, and every view or filtered grid on top of it, as it was.", "quantifier": "all histories of calls on any number of tables and grids, with any sharing of byte slices between calls", "why_tests_cant": "Sharing shows only when two windows into one array meet a write in the right order; the number of ways to combine tables, slices and calls is unbounded.", "anchors": ["base/dense.go: Get, Set, Extend, swapRows, NewDenseCopy", "base/fixed.go: set, get, resize, Storage", "base/bag.go: set, get, resize"]}
{"id": "C120", "title": "A value that was read stays as it was read", "statement": "The bytes that Get returns are the value of the cell at that moment and stay so: later calls on the table do not change them.", "quantifier": "all histories before and after the read, all attributes, tables, views and filtered grids", "why_tests_cant": "A stale or changing value shows only after some later write to the same cell, through any of several routes.", "anchors": ["base/dense.go: Get, Set, Extend", "base/fixed.go: get, set, resize", "base/bag.go: get", "base/view.go: Get", "base/filtered.go: Get"]}
{"id": "C121", "title": "A random forest learns from samples and predicts by majority", "statement": "Fitting a random forest succeeds on any training data and grows each tree so that it fits the sample drawn for it. Predicting any data with the same attributes gives each row a class that no other class beats in the number of trees that answer with it, and a tree answers only with labels it was trained on.", "quantifier": "all training data and data to predict, numbers of trees and features, random draws, goroutine schedules of Fit and Predict, numbers of CPUs and map orders", "why_tests_cant": "It combines random draws, two concurrent phases, trees of any shape and a vote: no set of runs covers the combinations.", "anchors": ["ensemble/randomforest.go: Fit, Predict", "meta/bagging.go: generateTrainingAttrs, generateTrainingInstances, generatePredictionInstances, Fit, Predict", "trees/id3.go: Fit, Predict, InferID3Tree", "trees/entropy.go: GetSplitRuleFromSelection"]}
{"id": "C122", "title": "A multi-class linear support vector classifier gives each row the first class whose own model claims it", "statement": "NewMultiLinearSVC succeeds exactly for the documented combinations of loss, penalty and form, and panics otherwise. Fit on data with one categorical class of at least two values trains one linear model per class on every row once, labelled 1 if the row is of the class and 0 if not; if class weights are configured, the class has its own weight and the rest has the sum of the others. Predict gives every row the first class whose model chooses the label 1 for the numbers of the row, and the first class of all if none does.", "quantifier": "all training tables with one categorical class attribute, all parameters and class weights, all solvers, all row and map orders, all tables to predict with the attributes of the training data or with none of them, and all rows", "why_tests_cant": "Which model claims a row depends on the whole training table, on the order in which labels first occur and on map iteration orders; tests fix one data set and one solver run.", "anchors": ["ensemble/multisvc.go:NewMultiLinearSVC", "ensemble/multisvc.go:initializeOneVsAllModel", "ensemble/multisvc.go:Fit", "ensemble/multisvc.go:Predict", "meta/one_v_all.go:Fit", "meta/one_v_all.go:Predict", "linear_models/linearsvc.go:Fit", "linear_models/linearsvc.go:Predict"]}
{"id": "C123", "title": "Evaluating a k-nearest-neighbours classifier measures predictions from rows that are not being tested", "statement": "When a classifier made by NewKnnClassifier (linear search, euclidean, manhattan or cosine distance) is cross-validated on a table with one categorical class attribute, and every fold leaves at least k rows outside it, GenerateCrossFoldValidationConfusionMatrices succeeds with one confusion matrix per fold. The matrix of a fold counts exactly the rows of the fold, each with its own label and the label given to it. The label given to a row has a majority among k rows nearest to it among the rows outside its own fold. The same holds for InstancesTrainTestSplit, Fit, Predict and GetConfusionMatrix in sequence, with the training rows in the place of the rows outside the fold.", "quantifier": "all tables with one categorical class attribute (for the split: all dense instances), all k from 1, all distance functions with the three names, all random draws, all sort and map iteration orders", "why_tests_cant": "The result depends on the random assignment of rows to folds, on views of views of rows, on map iteration orders and on ties between distances; a test sees one seed and one data set, and cannot see that a tested row took part in its own prediction.", "anchors": ["evaluation/cross_fold.go:GenerateCrossFoldValidationConfusionMatrices", "evaluation/confusion.go:GetConfusionMatrix", "base/util_instances.go:InstancesTrainTestSplit", "knn/knn.go:NewKnnClassifier", "knn/knn.go:Fit", "knn/knn.go:Predict", "base/view.go:NewInstancesViewFromVisible"]}
{"id": "C124", "title": "Evaluating a naive Bayes classifier measures predictions from rows that are not being tested", "statement": "When a Bernoulli naive Bayes classifier, fresh or used before, is cross-validated on a table of binary features with one categorical class attribute, and outside each fold there is a row and every label there has a row with some feature, GenerateCrossFoldValidationConfusionMatrices succeeds with one confusion matrix per fold. The matrix of a fold counts exactly the rows of the fold, each with its own label and the label given to it. The label given to a row is a label of the rows outside its fold with the best naive Bayes score, computed from those rows only: nothing is left over from earlier folds. If outside some fold a label has no row with a feature, the call panics. The same holds for InstancesTrainTestSplit, Fit, Predict and GetConfusionMatrix in sequence.", "quantifier": "all tables of binary features with one categorical class attribute (for the split: all dense instances), all earlier training, all random draws, all sort and map iteration orders", "why_tests_cant": "The classifier keeps conditional probabilities of earlier folds in its map, and the result depends on the random assignment of rows to folds and on map iteration orders; a test sees one seed and one data set.", "anchors": ["evaluation/cross_fold.go:GenerateCrossFoldValidationConfusionMatrices", "evaluation/confusion.go:GetConfusionMatrix", "base/util_instances.go:InstancesTrainTestSplit", "naive/bernoulli_nb.go:Fit", "naive/bernoulli_nb.go:PredictOne", "naive/bernoulli_nb.go:Predict"]}
{"id": "C125", "title": "Evaluating a decision tree measures predictions from rows that are not being tested", "statement": "When an ID3 tree without pruning or a random tree is cross-validated on a table with one categorical class attribute and another attribute, with a rule generator that picks an attribute, and a row is left outside each fold, GenerateCrossFoldValidationConfusionMatrices succeeds with one confusion matrix per fold. The matrix of a fold counts exactly the rows of the fold, each with its own label and the label given to it. For each fold there is one tree that was built from the rows outside the fold and their labels only, tests only attributes other than the class attribute, and gives the rows of the fold their labels; a tree from an earlier fold or an earlier Fit plays no part. The same holds for InstancesTrainTestSplit, Fit, Predict and GetConfusionMatrix in sequence, for ID3.", "quantifier": "all tables with values that can be read (for the split: all dense instances), all rule generators that pick an attribute, all earlier trees, all random draws, all sort, row and map iteration orders", "why_tests_cant": "The result depends on the random assignment of rows to folds, the rule generator and the iteration orders of maps; that no test row takes part in building the tree cannot be seen from one confusion matrix.", "anchors": ["evaluation/cross_fold.go:GenerateCrossFoldValidationConfusionMatrices", "evaluation/confusion.go:GetConfusionMatrix", "base/util_instances.go:InstancesTrainTestSplit", "trees/id3.go:InferID3Tree", "trees/id3.go:ID3DecisionTree.Fit", "trees/id3.go:Predict", "trees/random.go:RandomTree.Fit", "trees/random.go:RandomTree.Predict"]}
{"id": "C126", "title": "A model file with unexpected content is reported as an error", "statement": "Loading a decision tree or random tree from a file whose entries hold arbitrary JSON or bytes returns a tree or an error, unless somewhere in its tree a rule has a threshold that is not a number, or a rule's attribute or the class attribute has a precision that is not a number or, for a categorical attribute, values that are not a list of strings: then the program panics. Reading a single attribute panics exactly in these cases (if it has a name). A one-vs-all model whose structure and filters can be read, but whose class values are not strings, is an error.", "quantifier": "all files, as lists of named entries with arbitrary JSON documents or bytes, of any depth", "why_tests_cant": "The content of a damaged or foreign file is arbitrary; tests try a few files, and a crash needs one particular wrong type at one particular place.", "anchors": ["trees/id3.go:DecisionTreeRule.unmarshalJSON", "trees/id3.go:DecisionTreeNode.LoadWithPrefix", "trees/id3.go:ID3DecisionTree.Load", "trees/random.go:RandomTree.Load", "base/serialize_attributes.go:DeserializeAttribute", "base/serialize.go:ReadSerializedClassifierStub", "base/serialize.go:GetAttributeForKey", "meta/one_v_all.go:LoadWithPrefix"]}
{"id": "C127", "title": "An estimator gives no result for settings or data it does not support", "statement": "A k-nearest-neighbours classifier with a distance or algorithm it does not know, or asked about other attributes than it was trained on, returns an error. A CART tree given data without exactly one numeric class attribute returns an error, and so does a classification tree with an unknown criterion (a regression tree panics). Linear support vector machines and logistic regression given such data, an averaged perceptron given data without exactly one class attribute of two values, a one-vs-all model given data without exactly one categorical class attribute, and the class distributions given the wrong kind of class, panic. A network or mixture model that was not trained gives no predictions.", "quantifier": "all settings and data sets", "why_tests_cant": "The settings and data sets that are not supported are arbitrary; tests use supported ones.", "anchors": ["knn/knn.go:Predict", "trees/cart_classifier.go:Fit", "trees/cart_regressor.go:Fit", "linear_models/linearsvc.go:Fit", "linear_models/logistic.go:Fit", "linear_models/util.go:convertInstancesToLabelVec", "perceptron/average.go:processData", "meta/one_v_all.go:Fit", "base/util_instances.go:GetClassDistributionByCategoricalValue", "neural/layered.go:Predict", "clustering/em.go:Predict"]}
{"id": "C128", "title": "The metrics keep their meaning under float64 rounding", "statement": "With Go's float64 arithmetic, for up to 2^53 rows: the counts are exact; accuracy, precision, recall and the micro averages are the exact fractions rounded once; they lie in [0,1], are 1 only when nothing is wrong and 0 only when nothing is right; F1 lies in [0,1] and is off by a relative error of at most 2^-50; macro averages and cross-validated means of scores in [0,1] lie in [0,1] and are off by a relative error of about (n+1)*2^-53; the cross-validated variance lies in [0,1].", "quantifier": "all confusion matrices of at most 2^53 rows, in every iteration order of the maps, and all lists of scores", "why_tests_cant": "Rounding errors depend on the exact counts; tests sample a few matrices and compare with a tolerance.", "anchors": ["evaluation/confusion.go:GetTruePositives", "evaluation/confusion.go:GetFalsePositives", "evaluation/confusion.go:GetFalseNegatives", "evaluation/confusion.go:GetPrecision", "evaluation/confusion.go:GetRecall", "evaluation/confusion.go:GetF1Score", "evaluation/confusion.go:GetAccuracy", "evaluation/confusion.go:GetMicroPrecision", "evaluation/confusion.go:GetMacroPrecision", "evaluation/confusion.go:GetMicroRecall", "evaluation/confusion.go:GetMacroRecall", "evaluation/cross_fold.go:GetCrossValidatedMetric"]}
{"id": "C129", "title": "Averages and regression losses under float64 rounding", "statement": "The average that a k-nearest-neighbours regressor predicts and that a CART regression leaf stores lies between the smallest and the largest of the values averaged, and a node in which all rows have the same value has loss zero. With float64 rounding the full claim is false: the average of three times 0.1 is greater than 0.1, and a node of three rows 0.1 has a positive loss that a split reduces. It holds for whole numbers (whose average is the exact mean rounded once) and for one or two values; in general the average is off by a relative error of about (n+1)*2^-53 of the mean magnitude. Losses are never negative, and zero for one row.", "quantifier": "all lists of at most 2^53 float64 values; all training sets and query points", "why_tests_cant": "Whether an average leaves the range depends on the last bits of the values; tests use whole numbers or tolerances.", "anchors": ["knn/knn.go:KNNRegressor.Predict", "trees/cart_regressor.go:average", "trees/cart_regressor.go:meanAbsoluteError", "trees/cart_regressor.go:meanSquaredError"]}
{"id": "C130", "title": "Split thresholds under float64 rounding separate the values", "statement": "A threshold chosen between two different values (the midpoint in a CART tree, a drawn value in an isolation tree) never leaves the range of the values. It should also leave rows on both sides of the split. With float64 rounding that is false: the midpoint of 1 and the next float64 is 1, so the split has no rows on the left; an isolation tree's draw between 2^40 and the next float64 can be rounded to the upper end, and taking off 0.000001 changes nothing. It holds if the values are further apart than a relative 2^-50, or if the drawn threshold is not rounded to an end of the range.", "quantifier": "all pairs of different float64 values, all draws of rand.Float64 and all data", "why_tests_cant": "The failing cases are neighbouring float64 values, which sampled data rarely contain.", "anchors": ["trees/cart_classifier.go:classifierBestSplit", "trees/cart_regressor.go:regressorBestSplit", "trees/isolation.go:selectValue"]}
{"id": "C131", "title": "The distances are metrics under float64 rounding", "statement": "With float64 arithmetic the Manhattan and Chebyshev distances are never negative, symmetric and zero exactly for equal matrices, and panic for different shapes; the Euclidean distance is never negative, symmetric, zero for equal matrices and positive if two entries are 2^-537 apart. False in full: the Euclidean distance of points 2^-600 apart is zero, and the triangle inequality fails for Manhattan and Chebyshev. The Manhattan distance of n entries is off by a relative error of at most about (n+1)*2^-53, so the triangle inequality holds up to that error.", "quantifier": "all matrices of float64 entries of any shape, and any order of additions in the library's sum", "why_tests_cant": "Rounding and underflow depend on the exact entries; tests compare a few distances with a tolerance.", "anchors": ["metrics/pairwise/manhattan.go:Manhattan.Distance", "metrics/pairwise/chebyshev.go:Chebyshev.Distance", "metrics/pairwise/euclidean.go:Euclidean.Distance", "metrics/pairwise/euclidean.go:Euclidean.InnerProduct"]}
{"id": "C132", "title": "Equal-width binning under float64 rounding", "statement": "With float64 arithmetic, for up to 2^38 bins: a bin is never negative, larger values never get smaller bins, values up to the smallest get bin 0, and the labels' edges start at the smallest value and never decrease. Every value of the range gets one of the bins 0 to bins, the largest value gets the last, and the bin is the exact position rounded down unless that is within a thousandth of a whole number. The last three fail for bins narrower than 2^-1022: with three bins from 0 to 4*2^-1074 the largest value gets bin 4, which has no label.", "quantifier": "all ranges and values of float64s, and all numbers of bins", "why_tests_cant": "The constant 0.0001 in the code compensates rounding errors; whether it always suffices depends on all ranges and numbers of bins.", "anchors": ["filters/binning.go:BinningFilter.Transform", "filters/binning.go:BinningFilter.GetAttributesAfterFiltering"]}
{"id": "C133", "title": "CART impurities under float64 rounding", "statement": "With float64 arithmetic, the Gini impurity and the entropy of a node of a CART classification tree are never negative and are zero exactly if all rows have the same label. So a node with one label is never split, and a split that leaves one label on each side is always an improvement. The Gini impurity of k labels is off by at most k*(4*2^-53 + ((1+2^-53)^k - 1)).", "quantifier": "all lists of labels of at most 2^53 rows, all splits, and any logarithm that is 0 at 1 and at most -2^-53 below 1", "why_tests_cant": "The tree compares impurities with 0 and with each other; whether rounding can make a pure node look impure or the reverse depends on all counts.", "anchors": ["trees/cart_classifier.go:computeGiniImpurityAndModeLabel", "trees/cart_classifier.go:computeEntropyAndModeLabel", "trees/cart_classifier.go:classifierBestSplit"]}
{"id": "C134", "title": "Storage groups chosen by AddAttribute fit into a page", "statement": "Adding any attributes to a new table with AddAttribute succeeds. Every storage group made this way holds attributes of one kind (categorical, float or binary), is not empty and has rows no larger than an operating system page. When there are fewer attributes of each kind than 8-byte cells in a page, there is at most one group per kind. (The choice of group goes by name only: a group of bits named FLOAT0 made by hand receives float attributes, and their values do not survive.)", "quantifier": "all lists of attributes and all page sizes that are positive multiples of eight", "why_tests_cant": "The group is chosen from a running counter of bytes; whether the numbering ever overfills a page depends on all lengths and mixtures of attribute lists, and tests use tables of a few columns that need one group.", "anchors": ["base/dense.go:AddAttribute", "base/dense.go:createAttributeGroup", "base/fixed.go:RowSizeInBytes", "base/bag.go:RowSizeInBytes"]}
{"id": "C135", "title": "Evaluating a random forest measures predictions from rows that are not being tested", "statement": "When a random forest is evaluated by cross validation or by a split into training and test data, the confusion matrix of each fold counts exactly the rows of the fold, each once, with its own label and the label predicted for it. The trees that predict the label were grown only from rows outside the fold, each from as many rows drawn from them as there are, and test only the attributes selected for them; the label is one that no other label beats in the number of trees that give it. This holds for all draws and for all schedules of the goroutines that train and ask the trees. A forest with more features than the data has attributes is refused.", "quantifier": "all tables with a categorical class attribute and readable values, all numbers of folds, assignments of rows to folds that leave a row outside each fold, splits, draws of rows and attributes, numbers of trees (at least one), features, processors, schedules of the goroutines and orders of iteration over maps", "why_tests_cant": "a test sees a few assignments, draws and schedules; that no tested row reaches training, and that no vote is lost, has to hold for all of them", "anchors": ["evaluation/cross_fold.go:GenerateCrossFoldValidationConfusionMatrices", "ensemble/randomforest.go:RandomForest.Fit", "ensemble/randomforest.go:RandomForest.Predict", "meta/bagging.go:BaggedModel.Fit", "meta/bagging.go:BaggedModel.Predict", "base/util_instances.go:InstancesTrainTestSplit"]}
{"id": "C136", "title": "Numbers stored as bit patterns are compared, split and sorted as the numbers they stand for", "statement": "A number stored in a table is an IEEE 754 bit pattern. Thresholds of decision trees computed from such numbers lie strictly between different training values, so that the tree fits its training data although sums are rounded; comparisons treat NaN and the infinities as IEEE 754 says; turning numbers into truth values gives true exactly for positive numbers; sorting on a column of numbers puts the rows in the order of the numbers.", "quantifier": "all bit patterns of 64 bits; for thresholds, all sets of finite numbers below 2^1023 that are equal or further apart than a relative 2^-50; for sorting, all tables and columns of finite numbers", "why_tests_cant": "there are 2^64 patterns, and the boundaries (subnormal numbers, zeros with sign, overflow, neighbours whose middle rounds to one of them) are rare in test data", "anchors": ["base/util.go:PackFloatToBytes", "base/util.go:UnpackBytesToFloat", "trees/entropy.go:getNumericAttributeEntropy", "base/sort.go:Sort", "filters/binary.go:BinaryConvertFilter.Transform"]}
{"id": "C137", "title": "A classifier evaluated on a CSV file is measured on the lines of the file", "statement": "Loading a CSV file with ParseCSVToInstances gives a table whose columns, names, rows and cells are those of the file, with the last column as class. Cross validation of an unpruned ID3 tree with information gain, gain ratio or Gini, or of a k-nearest-neighbours classifier, on the loaded table gives one matrix per fold that counts each line of the fold once, with the label written in the file and the label given by a classifier trained on the other lines only: a tree built from them, or a majority among the k lines nearest by the numbers in the file. A tree trained on the whole file describes it: the class of every node is a most frequent label of the lines that reach it, and there is a branch for each value that occurs.", "quantifier": "all files with at least two columns of different names, no empty fields, numbers where the first line has numbers, and text in the last column; all assignments of lines to folds that leave enough lines outside each fold; all orders of map iteration", "why_tests_cant": "the claim runs through parsing, storage, views, training, prediction and counting for every file and every random assignment; unit tests use one or two files and look at an accuracy", "anchors": ["base/filewrapper.go:ParseCSVToInstances", "base/csv.go:ParseCSVToInstancesFromReader", "evaluation/cross_fold.go:GenerateCrossFoldValidationConfusionMatrices", "trees/id3.go:ID3DecisionTree.Fit", "knn/knn.go:KNNClassifier.Predict"]}
{"id": "C138", "title": "Rounding in entropies and logarithms cannot break the building of a decision tree", "statement": "InferID3Tree with the generators of information gain, gain ratio or Gini, and a random tree at each node where enough attributes are drawn, builds a tree for every table of finite numbers and categories, however sums, quotients and logarithms of entropies are rounded: no panic, no endless loop, no rule for the class attribute, and every node describes the rows that reach it. Numbers may be repeated, arbitrarily close, or so large that a midpoint is an infinity. Without rounding the generators choose what exact arithmetic says.", "quantifier": "all tables of training data with finite float64, all arithmetics on entropies with any results, including NaN and infinities, different at each node, all orders of map iteration, all sorting that permutes", "why_tests_cant": "results of float64 arithmetic depend on values, on the order in which maps are iterated over and on the processor; tests run a few data sets once", "anchors": ["trees/entropy.go:InformationGainRuleGenerator.GetSplitRuleFromSelection", "trees/entropy.go:getNumericAttributeEntropy", "trees/entropy.go:getSplitEntropyFast", "trees/gr.go:InformationGainRatioRuleGenerator.GetSplitRuleFromSelection", "trees/gini.go:GiniCoefficientRuleGenerator.GetSplitRuleFromSelection", "trees/random.go:RandomTreeRuleGenerator.GenerateSplitRule"]}
{"id": "C139", "title": "A decision tree stops growing only when it must", "statement": "In a tree built by InferID3Tree with the generators of information gain, gain ratio or Gini, a node is a leaf only if the training rows that reach it have one label, or no attribute is left that could tell them apart. So predicting the training data gives every row its own label unless a row with another label has the same values.", "quantifier": "all tables of training data, with repeated numbers or none, all orders of map iteration, all nodes of the tree", "why_tests_cant": "a tree that stops too early still gives answers, and for most of the rows in a test they are right", "anchors": ["trees/id3.go:InferID3Tree", "trees/id3.go:DecisionTreeNode.Predict", "trees/entropy.go:getNumericAttributeEntropy", "trees/entropy.go:InformationGainRuleGenerator.GetSplitRuleFromSelection"]}
{"id": "C140", "title": "A model file cut short by a crash loads as the model that was saved, or is an error", "statement": "The program or the machine may stop at any moment while a model is being saved. Loading what reached the disk gives exactly what loading the complete file gives, or an error; no other model is ever loaded. Saving only appends entries. For trees, random forests, nearest neighbours, naive Bayes and linear support vector classifiers, and for tables, a file that lacks any of its entries is always an error. The model that was in the file before is lost.", "quantifier": "all models that can be saved, all points at which writing is interrupted, all files", "why_tests_cant": "A test cannot stop the program at every point of a save, for every model and every size of the file.", "anchors": ["base/serialize.go:GetNamedFile", "base/serialize.go:CreateSerializedClassifierStub", "base/serialize.go:WriteBytesForKey", "base/serialize_instances.go:DeserializeInstancesFromTarReader", "trees/id3.go:LoadWithPrefix", "knn/knn.go:LoadWithPrefix", "meta/bagging.go:LoadWithPrefix", "meta/one_v_all.go:LoadWithPrefix", "naive/bernoulli_nb.go:LoadWithPrefix", "linear_models/linearsvc.go:LoadWithPrefix", "ensemble/multisvc.go:LoadWithPrefix"]}
{"id": "C141", "title": "A save that reports success has written the whole model", "statement": "Whatever the disk does while a model is being saved, Save reports success only if every part of the model is in the file. This holds for nearest neighbours classifiers, one-vs-all models and support vector classifiers for several classes. It fails for the others: decision trees never close the file, random trees, bagged models, random forests, naive Bayes classifiers and linear support vector classifiers drop the error of closing it, and the errors of flushing are dropped everywhere. For every such model there is a disk failure after which Save reports success and the file cannot be loaded. In every case the file is a first part of the complete file, and on a disk that does not fail saving succeeds.", "quantifier": "all lists of entries, all ways in which the disk can fail and the buffers can fill up, all models that can be saved and loaded", "why_tests_cant": "A test cannot make the disk fail at every moment of a save, and tests on a working disk never see it.", "anchors": ["base/serialize.go:WriteBytesForKey", "base/serialize.go:Close", "base/serialize.go:CreateSerializedClassifierStub", "trees/id3.go:Save", "trees/random.go:Save", "meta/bagging.go:Save", "ensemble/randomforest.go:Save", "naive/bernoulli_nb.go:Save", "linear_models/linearsvc.go:Save", "linear_models/linearsvc.go:SaveWithPrefix", "knn/knn.go:SaveWithPrefix", "meta/one_v_all.go:Save"]}
{"id": "C142", "title": "A table written to a path is what the file at that path then contains", "statement": "When writing a table to a path reports success, the file has exactly the text of the table, and reading it gives the table back. For binary files this holds: success means that all entries were written. For CSV and ARFF files it holds only if the disk takes everything and the file was not longer before. Otherwise old rows remain after the new ones and are read as rows of the table; a full disk is not reported; and an ARFF file can lack a row in the middle. To a path without a file no table can be written.", "quantifier": "all tables, all earlier contents of the file, all ways in which writing can fail", "why_tests_cant": "It depends on what was in the file before and on when the disk fails, which a test that writes to a fresh temporary file never varies.", "anchors": ["base/serialize_instances.go:SerializeInstancesToFile", "base/serialize_instances.go:SerializeInstances", "base/serialize_instances.go:SerializeInstancesToCSV", "base/serialize_instances.go:SerializeInstancesToCSVStream", "base/arff.go:SerializeInstancesToDenseARFFWithAttributes", "base/arff.go:SerializeInstancesToWriterDenseARFFWithAttributes"]}
{"id": "C143", "title": "Loading into a classifier that is in use replaces it, or leaves it as it was", "statement": "Load is a method of an existing classifier. After it succeeds the classifier is that of the file, whatever it was before; after it fails the classifier is as it was. For naive Bayes classifiers both hold. For decision trees, random trees, nearest neighbours and linear support vector classifiers the first holds and the second does not: a tree is forgotten and then says the empty text for every row, the training data of a nearest neighbours classifier is gone while its parameters are those of the file, and a support vector classifier has the parameters of the file with its old model or none. A bagged model or forest keeps the classifiers before the failing one from the file and the others from before. The first fails for single tree nodes, whose old children stay and answer rows, and for the class weights of a multi-class support vector machine. Loading the file of a random tree, forest or naive Bayes classifier into a nearest neighbours classifier panics.", "quantifier": "all classifiers of these kinds in any state, all files, readable or not", "why_tests_cant": "It depends on the state before and on where reading the file fails; tests load into new classifiers from good files.", "anchors": ["knn/knn.go:LoadWithPrefix", "trees/id3.go:LoadWithPrefix", "trees/random.go:LoadWithPrefix", "naive/bernoulli_nb.go:LoadWithPrefix", "linear_models/linearsvc.go:LoadWithPrefix", "meta/bagging.go:LoadWithPrefix", "ensemble/multisvc.go:LoadWithPrefix"]}
{"id": "C144", "title": "A model that is fitted again is that of its last training data", "statement": "Fitting a model to one table after another gives the same predictions as fitting a new model with the same settings to the last table. This holds for nearest neighbours, decision trees, random trees and naive Bayes classifiers, whatever happened before; a naive Bayes classifier keeps the probabilities of classes that are only in earlier tables, though, and writes them to file. Training a binning or ChiMerge filter again gives the filter that is trained once. It does not hold for the average perceptron, whose counter and edges are never reset: each fit adds ten for each row, and the weights depend on them. It does not hold for layered networks, which panic or read the wrong neurons after a second fit. A conversion filter that is trained again has every column of the first training twice, with unchanged values.", "quantifier": "all models of these kinds in any state, all sequences of tables", "why_tests_cant": "It depends on the whole history of a model; tests fit each model once.", "anchors": ["naive/bernoulli_nb.go:Fit", "perceptron/average.go:Fit", "neural/layered.go:Fit", "knn/knn.go:Fit", "trees/id3.go:Fit", "trees/random.go:Fit", "filters/binary.go:Train", "filters/float.go:Train", "filters/binning.go:Train", "filters/chimerge.go:Train"]}
{"id": "C145", "title": "The parts of a split stay a partition of the table, but not what they were", "statement": "The training and the test part of a split show the table, they do not copy it. As long as nothing acts on the table, both parts, and a nearest neighbours classifier that was fitted to one of them, stay what they were. Splitting a view or a filtered grid changes nothing that exists. Splitting, shuffling or sorting the table again exchanges rows under the parts: they keep their sizes and together still show every row once, but other rows. So a test part can come to show the rows the model was trained on, and a nearest neighbours classifier that was fitted to the training part answers from rows of the test part.", "quantifier": "all tables with any contents, all histories of calls before and after, all draws and proportions, any number of later exchanges of rows", "why_tests_cant": "It depends on what a client does with the table later, and on the draws of two splits; tests split a table once.", "anchors": ["base/util_instances.go:InstancesTrainTestSplit", "base/util_instances.go:Shuffle", "base/view.go:NewInstancesViewFromVisible", "base/dense.go:swapRows", "knn/knn.go:Fit"]}
{"id": "C146", "title": "Attributes are shared between tables: what new texts and predictions do to the data", "statement": "Tables, views and prediction vectors pass the attribute objects on. A text that is new to a categorical attribute becomes a value of it in every grid with that attribute, at the end. As long as different attributes of a grid have different names, the grid keeps its size, its cells and the text of every cell, whatever texts are written through whatever other grids; with two categorical attributes of the same name it does not: a new value can make them equal, and the cells of one are then those of the other. A decision tree, a naive Bayes or a nearest neighbours classifier that predicts only writes labels to rows of the prediction vector. So the data to predict keeps its size, cells and texts, no attribute but its class changes, and the class gets the labels that were new, each once; if the class has all the labels already nothing changes. If it has not, predicting changes the data: the attribute as it was before is no longer found in it.", "quantifier": "all tables and views over tables, all sequences of texts written to any attributes, all trees, naive Bayes models and nearest neighbours models with any settings, all orders of rows", "why_tests_cant": "It depends on which objects other grids share and on the texts that are new; tests look at the grid they wrote to.", "anchors": ["base/categorical.go:GetSysValFromString", "base/util_instances.go:GeneratePredictionVector", "base/util_attributes.go:SetClass", "base/view.go:NewInstancesViewFromRows", "trees/id3.go:Predict", "naive/bernoulli_nb.go:Predict", "knn/knn.go:Predict"]}
{"id": "C147", "title": "Members of an ensemble that predict at the same time share the class attribute", "statement": "The members of a bagged model predict in goroutines, and every prediction vector has the class attribute of the data, to which a label that is new is added without any lock. In every schedule the values the attribute had stay where they are, and the code of a label that is one of them is its place and stands for it at any time, whatever is added meanwhile. If all labels are values already the attribute never changes. If calls do not overlap, every code stands for its text, no value comes twice and only texts of calls are added. If calls with new labels overlap this is false: the code of one label can stand for another one, a value can be lost or be written over after the call has returned, and with one new label and three goroutines a code can be beyond the values, so that reading it panics.", "quantifier": "all values and spare capacities, all growth policies of append, any number of goroutines with any texts, all interleavings of their steps", "why_tests_cant": "The wrong outcomes need particular interleavings, which a test run does not produce on demand.", "anchors": ["base/categorical.go:GetSysValFromString", "base/util_instances.go:GeneratePredictionVector", "meta/bagging.go:Predict"]}
{"id": "C148", "title": "Predicting again: what the result depends on besides the data", "statement": "Go visits maps in an order that differs from run to run, and goroutines are scheduled as it happens. Still every run gives a row the same class: a nearest neighbours classifier, plain or weighted, with the linear search or the k-d tree, if the k nearest training rows are clearly nearest and one of their labels has clearly more votes or weight; an ensemble if one class has more votes than every other one; a decision tree if there is a branch for every value of the row on its way to a leaf. In the remaining cases the order decides: with two labels that have equally many votes, with rows at the same distance, with equally many votes in an ensemble and with a value that has no branch, two runs on the same data can give different classes.", "quantifier": "all data sets, all numbers of neighbours, all trees, all ensembles, all orders of rows, votes, branches and equal distances, all schedules", "why_tests_cant": "Map iteration is random: a test sees one order per run, and ties are rare in test data.", "anchors": ["knn/knn.go:Predict", "knn/knn.go:vote", "knn/knn.go:weightedVote", "meta/bagging.go:Predict", "trees/id3.go:Predict"]}
{"id": "C149", "title": "Several goroutines that set and get cells of one table", "statement": "Set and Get may be called from several goroutines without a lock, after the table has been extended. If no goroutine sets a cell that another one sets or gets, and no two goroutines work on binary attributes of one row that share a byte, then in every schedule no call panics or waits, and once the calls have returned the table is the one the goroutines leave when they work one after the other: every cell has the last value set by its goroutine, all other cells are as they were, and every goroutine has read what it reads when it is alone. For attributes that are not binary different cells are enough, for binary ones different rows are. Otherwise values can be lost: two goroutines that set different binary attributes of one row, or a Set while another goroutine is in Extend, can leave a cell without the value, though the call has returned; and a Get during a Set of the same cell can give a value that is neither the old nor the new one.", "quantifier": "all groups of attributes, all numbers of rows and goroutines, all sequences of calls, all schedules of single byte accesses", "why_tests_cant": "A test sees a few schedules; the lost values need a switch between two accesses to one byte.", "anchors": ["base/dense.go:Set", "base/dense.go:Get", "base/dense.go:Extend", "base/fixed.go:set", "base/fixed.go:get", "base/fixed.go:resize", "base/bag.go:set", "base/bag.go:get", "base/bag.go:resize"]}
{"id": "C150", "title": "Several goroutines that build the columns of one table", "statement": "Goroutines may create groups, add attributes, look attributes up, list them, choose and remove class attributes and extend one table at the same time, if no attribute that is added equals another one: in every schedule in which no call panics, every call behaves as if it happened at one moment between its beginning and its end. The calls return what they return, and the table is what it is, when one goroutine makes them one after the other in the order of those moments; no attribute is lost and none comes twice. With equal attributes this is false: AddClassAttribute gives the lock back after it has found the attribute, and if an equal one is added to an earlier group in between, what the calls return fits no order of them.", "quantifier": "all tables, all numbers of goroutines, all sequences of calls, all schedules", "why_tests_cant": "A test sees a few schedules and compares with one order; the failure needs a call between the two halves of another.", "anchors": ["base/dense.go:CreateAttributeGroup", "base/dense.go:AddAttribute", "base/dense.go:AddAttributeToAttributeGroup", "base/dense.go:GetAttribute", "base/dense.go:AddClassAttribute", "base/dense.go:RemoveClassAttribute", "base/dense.go:AllClassAttributes", "base/dense.go:AllAttributes", "base/dense.go:Extend"]}
{"id": "C151", "title": "Training a decision tree again: when the tree is the same", "statement": "Go visits maps in an order that differs from run to run. Still two runs of InferID3Tree on the same training data build the same tree, with the generators of information gain and gain ratio, if there is no tie: where a node is made, one label is more frequent than any other one and one attribute has a greater gain, or ratio, than any other one that is left. Each node tests an attribute with the greatest gain for the rows that reach it. So the two trees give the same class to every training row, and to every row with a branch for each of its values. With a tie the order decides: each of the best attributes is the first test in some run, and two runs can give a new row different classes. With the Gini generator each attribute is the first test in some run, whatever the data.", "quantifier": "all tables of training data without numeric attributes, all orders of rows, classes, groups and candidates at every node, all tables to predict", "why_tests_cant": "map iteration is random: a test sees one order per run, and two runs that differ look like a test that is flaky", "anchors": ["trees/id3.go:InferID3Tree", "trees/id3.go:DecisionTreeNode.Predict", "trees/entropy.go:InformationGainRuleGenerator.GetSplitRuleFromSelection", "trees/gr.go:InformationGainRatioRuleGenerator.GetSplitRuleFromSelection", "trees/gini.go:GiniCoefficientRuleGenerator.GetSplitRuleFromSelection"]}
{"id": "C152", "title": "Training on the same rows in another order", "statement": "Putting the rows of the training data in another order, for example with Shuffle or Sort, does not change what is learned where the data decide it. The naive Bayes classifier ends up with the same counts and probabilities for every class, and Fit panics for one order exactly if it panics for every order. A row for which one class has a greater posterior than the others gets this class. A decision tree without numeric attributes and without ties is the same tree. A nearest-neighbour classifier gives a row the same class if its k nearest rows are clear and one label is the most frequent among them. The confusion matrix has the same entries if reference and predictions are put in the same order. With ties the order of the rows can change the class that KNN predicts, with everything else the same.", "quantifier": "all tables of training data, all reorderings of their rows, all orders in which Go visits maps, all tables to predict", "why_tests_cant": "a table of n rows has n! orders; a test tries one or two shuffles of one table", "anchors": ["base/util_instances.go:Shuffle", "base/sort.go:Sort", "naive/bernoulli_nb.go:BernoulliNBClassifier.Fit", "trees/id3.go:InferID3Tree", "knn/knn.go:KNNClassifier.Predict", "evaluation/confusion.go:GetConfusionMatrix"]}
{"id": "C153", "title": "A CART tree does not depend on the order of the training rows", "statement": "Fitting a CART classifier or regressor to the same rows in another order gives exactly the same tree: the same columns, thresholds, labels and shape, with ties and equal rows too. This holds for every criterion, depth limit and list of labels, and whether or not the sort that the code uses is stable. If Fit fails for one order of the rows it fails in the same way for every order. In particular, shuffling the training table before Fit changes nothing. The order of the label list given to the classifier does matter, since it decides between equally frequent labels.", "quantifier": "all rows of numbers with labels, all permutations of them, all criteria and depth limits, all sorts of the rows by value, all outcomes of Shuffle", "why_tests_cant": "n rows have n! orders, and an unstable sort may leave equal values in any order; a test tries a few", "anchors": ["trees/cart_classifier.go:classifierBestSplit", "trees/cart_classifier.go:CARTDecisionTreeClassifier.Fit", "trees/cart_regressor.go:regressorBestSplit", "trees/cart_regressor.go:CARTDecisionTreeRegressor.Fit", "trees/cart_utils.go:findUnique", "base/util_instances.go:Shuffle"]}
{"id": "C154", "title": "CART trees and the units of the columns", "statement": "Changing the unit of a numeric column (degrees Celsius to Fahrenheit, metres to centimetres), that is multiplying it by a positive number and adding a number, each column with its own numbers, does not change what a CART classifier or regressor learns: it builds the same tree with the thresholds in the new units. If the tree has a split, every row in the new units gets the prediction that the same row gets in the old ones. If it has none, the prediction depends on whether the first column is below zero, so that a change of unit can change it.", "quantifier": "all rows, positive factors, offsets, criteria, depth limits and sorts, all rows to predict", "why_tests_cant": "the factors and offsets are arbitrary numbers for each column; a test tries one conversion", "anchors": ["trees/cart_classifier.go:classifierBestSplit", "trees/cart_classifier.go:classifierPredictSingle", "trees/cart_regressor.go:regressorBestSplit", "trees/cart_regressor.go:regressorPredictSingle", "trees/cart_utils.go:findUnique", "trees/cart_utils.go:validate"]}
{"id": "C155", "title": "A CART tree does not change if every row occurs k times as often", "statement": "Fitting a CART classifier or regressor to a table in which every row of the training data occurs k times (for any k above zero, in any order) gives exactly the tree of the original rows: impurities, thresholds, labels and the decision to stop depend on proportions only, not on the number of rows. Rows that are repeated unevenly do change the tree.", "quantifier": "all rows, all k above zero, all criteria, depth limits and sorts of the rows by value", "why_tests_cant": "the number of copies and the rows are unbounded; a test tries one table twice over", "anchors": ["trees/cart_classifier.go:classifierBestSplit", "trees/cart_classifier.go:calculateClassificationLoss", "trees/cart_regressor.go:regressorBestSplit", "trees/cart_regressor.go:calculateRegressionLoss", "trees/cart_utils.go:findUnique"]}
{"id": "C156", "title": "A linear regression is determined by the rows of the training data", "statement": "With independent columns, the intercept and the coefficients that LinearRegression.Fit finds are the only ones with the smallest sum of squared errors, and if the class is a linear function of the attributes in the training data, it finds this function. Fitting to the same rows in another order, with the attributes in any order in which the map of attributes gives them and with any QR factorisation, gives the same intercept, the same coefficients up to the order of the attributes, and the same prediction for every row of every table.", "quantifier": "all tables with independent columns, all orders of rows and attributes, all QR factorisations, all tables to predict", "why_tests_cant": "the order of the attributes comes from a map and differs from run to run; a test sees one order and one factorisation of one table", "anchors": ["linear_models/linear_regression.go:LinearRegression.Fit", "linear_models/linear_regression.go:LinearRegression.Predict", "base/attributes.go:NonClassFloatAttributes"]}
{"id": "C157", "title": "Linear regression does not depend on units or on how often all rows are repeated", "statement": "If every row of the training data occurs k times as often (k above zero, in any order) and the numbers of every float column, also of the class, are written in other units (multiplied by a number that is not zero and moved by another one), LinearRegression trained on it predicts for rows in the new units exactly the number, in the units of the class, that it predicts for the same rows in the old units when trained on the original data.", "quantifier": "all tables with independent columns, all units with factors that are not zero, all k above zero, all orders of rows and attributes, all QR factorisations, all tables to predict", "why_tests_cant": "units, tables and numbers of copies are unbounded; a test tries one rescaled table", "anchors": ["linear_models/linear_regression.go:LinearRegression.Fit", "linear_models/linear_regression.go:LinearRegression.Predict"]}
{"id": "C158", "title": "CART regressor predictions follow a change of the units of the labels", "statement": "If every label of the training data is multiplied by a number that is not zero and moved by another one, the CART regressor builds the same splits (columns, thresholds, shape), and predicts for every row its old prediction in the new units.", "quantifier": "all rows, all factors that are not zero, all criteria, depth limits, orders of the rows and sorts by value", "why_tests_cant": "units and rows are unbounded; a test tries one rescaled table", "anchors": ["trees/cart_regressor.go:regressorBestSplit", "trees/cart_regressor.go:calculateRegressionLoss", "trees/cart_regressor.go:regressorPredictSingle"]}
{"id": "C159", "title": "Nearest neighbour predictions do not depend on units", "statement": "If the numbers of the training data and of the data to predict are written in other units (each column multiplied by a positive number and moved by another one), the k nearest neighbour classifier predicts the same class for every row.", "quantifier": "all tables, units, numbers of neighbours, distances, orders of rows, votes and equal distances", "why_tests_cant": "units and tables are unbounded; a test tries one rescaled table", "anchors": ["knn/knn.go:KNNClassifier.Predict", "metrics/pairwise/euclidean.go:Euclidean.Distance", "metrics/pairwise/manhattan.go:Manhattan.Distance"]}
{"id": "C160", "title": "Nearest neighbours look at the numeric columns only, in any order", "statement": "The class that a k nearest neighbour classifier predicts depends on the numbers in the numeric columns and on the labels of the training rows. The order of the columns and the contents or presence of all other columns make no difference, with the linear search and with the k-d tree.", "quantifier": "all tables, orders of columns, other columns, numbers of neighbours, orders of rows, of votes and of equal distances, with both ways to vote", "why_tests_cant": "a test permutes the columns of one table; ties and the shape of the tree depend on all numbers", "anchors": ["knn/knn.go:KNNClassifier.Predict", "kdtree/kdtree.go:Tree.Search", "metrics/pairwise/euclidean.go:Euclidean.Distance", "metrics/pairwise/manhattan.go:Manhattan.Distance"]}
{"id": "C161", "title": "Naive Bayes does not depend on the order of the columns", "statement": "If the columns of the training data, or of the data to predict, are put in another order, a Bernoulli naive Bayes classifier behaves the same: training panics for one order exactly if it panics for the other one, and otherwise Predict gives the same classes for every table, ties included, as far as scores are computed without rounding.", "quantifier": "all tables of binary features, orders of columns, orders of maps, settings of the logarithm, and whatever earlier calls to Fit have left in the models", "why_tests_cant": "tables and orders are unbounded; a test permutes the columns of one table", "anchors": ["naive/bernoulli_nb.go:BernoulliNBClassifier.Fit", "naive/bernoulli_nb.go:BernoulliNBClassifier.PredictOne", "naive/bernoulli_nb.go:BernoulliNBClassifier.Predict"]}
{"id": "C162", "title": "The perceptron does not depend on the order of the columns", "statement": "Putting the numeric columns of a table in another order does not change the predictions of an averaged perceptron. This holds if the columns of the training data and of the data to predict are put in the same other order and the perceptron has a weight for each of them, whatever the labels and the other columns are. It does not hold if only one of the two is changed: Predict accepts any table with the attributes of the training data, but applies the weights to the columns by their places, so that it predicts other classes for the same rows.", "quantifier": "all pairs of tables with the same numeric columns and numbers, orders of columns and settings of the perceptron", "why_tests_cant": "tables and orders are unbounded; a test permutes the columns of one table", "anchors": ["perceptron/average.go:AveragePerceptron.Fit", "perceptron/average.go:AveragePerceptron.Predict", "perceptron/average.go:AveragePerceptron.score", "perceptron/average.go:AveragePerceptron.updateWeights", "perceptron/average.go:processData"]}
{"id": "C163", "title": "Linear regression finds its columns by name", "statement": "If the columns of the training data, or of the data to predict, are put in another order, or columns that are not numeric are added, removed or changed, LinearRegression finds the same intercept and the same coefficient for each column, and predicts the same numbers for all rows, as far as it is computed without rounding.", "quantifier": "all pairs of tables with the same class, the same independent numeric columns and the same numbers, all orders of columns and rows, all QR factorisations, all tables to predict", "why_tests_cant": "tables and orders are unbounded; a test permutes the columns of one table", "anchors": ["linear_models/linear_regression.go:LinearRegression.Fit", "linear_models/linear_regression.go:LinearRegression.Predict"]}
{"id": "C164", "title": "Trees and linear classifiers take columns by their places", "statement": "A classifier finds the columns that it was trained on by their names, so that putting the columns of a table in another order does not change its predictions. For CART trees, isolation forests and logistic regression this is not so. They take the numeric columns in the order in which the table has them. The names make no difference: training on two tables with the same numbers in the same places has the same result, and every tree predicts the same, and every forest gives the same scores, for two such tables. A CART tree predicts other labels for the same rows if their columns are in another order than those of the training data, without any error. Even if training data and data to predict have the same other order the predictions can change, because of two columns that split equally well the first one is taken.", "quantifier": "all pairs of tables with the same numbers in the same places, all names and other columns, all settings, random draws and orders of rows", "why_tests_cant": "tables and names are unbounded; a test renames the columns of one table", "anchors": ["trees/cart_utils.go:convertInstancesToProblemVec", "trees/cart_classifier.go:CARTDecisionTreeClassifier.Predict", "trees/cart_regressor.go:CARTDecisionTreeRegressor.Predict", "trees/isolation.go:preprocessData", "linear_models/logistic.go:LogisticRegression.Fit"]}
{"id": "C165", "title": "A decision tree looks at the columns of its rules only, by name", "statement": "DecisionTreeNode.Predict has the same result for two tables which have the columns that the rules of the tree use under the same names, with the same numbers and texts. The order of the columns, further columns and the contents of the class column make no difference. For a trained tree the columns of the training data without the class are enough.", "quantifier": "all trees, all pairs of tables, all orders of columns, attributes, rows and branches that a run can have", "why_tests_cant": "trees and tables are unbounded, and the order of the attributes comes from a map; a test sees a few orders of one table", "anchors": ["trees/id3.go:DecisionTreeNode.Predict", "trees/id3.go:InferID3Tree"]}
{"id": "C166", "title": "DBSCAN looks at the numbers of the chosen columns only, in any order and any units", "statement": "DBSCAN returns the same clusters, or fails in the same way, for two tables whose chosen columns have the same numbers. The order of the columns in the tables and in the parameters and all other columns make no difference, if the distance does not depend on the order of the numbers. If the numbers are multiplied by a factor and moved by an offset per column, and eps grows as the distances do, the result is the same too.", "quantifier": "all pairs of tables, all lists of chosen columns, all distances that do not depend on the order of the columns, all eps and minimum counts, all factors and offsets", "why_tests_cant": "tables, distances and units are unbounded; a test sees one table with one order of the columns", "anchors": ["clustering/dbscan.go:DBSCAN", "clustering/dbscan.go:computePairwiseDistances", "base/conversion.go:ConvertAllRowsToMat64"]}
{"id": "C167", "title": "DBSCAN puts the same rows together whatever the order of the rows", "statement": "If the rows of a table are put in another order, DBSCAN puts two rows in one cluster exactly if it does so in the first table. This is refuted: a row which is within eps of a row that comes first and is in no cluster is left out. It holds if every row within eps of a core row is a core row, in particular for a minimum count of at most two.", "quantifier": "all tables, all orders of the rows, all distances that depend neither on the order of the columns nor on the order of the two rows, all eps and minimum counts", "why_tests_cant": "there are as many orders as permutations of the rows; a test sees a few", "anchors": ["clustering/dbscan.go:DBSCAN", "clustering/dbscan.go:regionQuery"]}
{"id": "C168", "title": "Expectation maximisation looks at the numbers of its columns only, row by row", "statement": "The component that ExpectationMaximization.Predict gives a row depends on the numbers of this row in the columns of the training data only. Other rows, other columns and the place of the row make no difference. Fit gives the same model for two tables with the same columns, in the same order, and the same numbers in them, for the same random draws, and runs as long.", "quantifier": "all fitted models, all pairs of tables and rows in them, all training tables, all random draws and orders of rows that a run can have", "why_tests_cant": "tables and models are unbounded, and the draws are random; a test sees one model and one table", "anchors": ["clustering/em.go:ExpectationMaximization.Fit", "clustering/em.go:ExpectationMaximization.Predict"]}
{"id": "C169", "title": "Decision trees and linear regressions predict each row on its own", "statement": "What a trained decision tree, or a linear regression, predicts for a row depends on this row only. A row of one table and a row of another one with the same values in the columns of the model get the same prediction, whatever the other rows and columns, the number of rows and the places of the two rows.", "quantifier": "all training data, all pairs of tables to predict and all pairs of rows in them, all orders of rows and attributes that a run can have", "why_tests_cant": "the pairs of tables and rows are unbounded; a test compares a few rows", "anchors": ["trees/id3.go:DecisionTreeNode.Predict", "linear_models/linear_regression.go:LinearRegression.Predict"]}
{"id": "C170", "title": "Nearest neighbours predict each row on its own, without ties", "statement": "What nearest neighbours predict for a row depends on the numbers of this row and the training data only. Two rows with the same numbers, of one table or of two, get the same class.", "quantifier": "all training data, all pairs of tables to predict and all pairs of rows in them, all numbers of neighbours, all orders of rows, attributes, votes and equal distances that a run can have", "why_tests_cant": "the pairs of tables and the orders are unbounded; a test sees the orders of one run", "anchors": ["knn/knn.go:KNNClassifier.Predict", "knn/knn.go:KNNClassifier.vote"]}
{"id": "C171", "title": "Naive Bayes judges each row on its own", "statement": "Naive Bayes is trained once and used on two tables. A row of the one and a row of the other with the same features get classes that are equally likely, whatever the other rows and columns and the places of the two rows. If one class is more likely than every other one, both rows get it.", "quantifier": "all binary training data in which every class has a row with a feature, all pairs of tables to predict and all pairs of rows in them, all orders of rows and classes that a run can have", "why_tests_cant": "the pairs of tables and the orders are unbounded; a test sees the orders of one run", "anchors": ["naive/bernoulli_nb.go:BernoulliNBClassifier.Predict", "naive/bernoulli_nb.go:BernoulliNBClassifier.PredictOne"]}
{"id": "C172", "title": "An ensemble judges each row by the votes of its models", "statement": "One ensemble is used on two tables. A row of the one and a row of the other for which every model predicts the same class get classes with the same number of votes, whatever the other rows, the schedules and the numbers of processors. If one class has more votes than every other one, both rows get it.", "quantifier": "all ensembles of models that predict, all pairs of tables and all pairs of rows in them, all schedules of the goroutines, all numbers of processors, all orders of rows, maps and votes that a run can have", "why_tests_cant": "the schedules and the pairs of tables are unbounded; a test sees one schedule of a run", "anchors": ["meta/bagging.go:BaggedModel.Predict"]}
