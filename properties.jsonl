{"id": "C01", "title": "Named keys count increments", "statement": "After any sequence of set_named_key and increment calls, key(name, offset) is the value last given to set_named_key for that name, plus the number of increments of that name since, plus offset; priority(name) is the priority last set; calls naming a key that was never set throw and change nothing; operations on one name never change another.", "quantifier": "all histories of set_named_key/increment over all names, keys, priorities and offsets", "why_tests_cant": "the claim is about every interleaving of operations on any number of names", "anchors": ["serpent/src/back_end/graph_manager.cpp: GraphManager::key, increment, set_named_key, priority"]}
{"id": "C02", "title": "minimum_key is the minimum over the requested priorities", "statement": "minimum_key(p) throws exactly when no named key has priority <= p; otherwise it returns the key of some named key with priority <= p and no named key with priority <= p has a smaller key.", "quantifier": "all histories of named-key operations and all priorities", "why_tests_cant": "ranges over every set of named keys; the callback scheduling in the back end depends on the minimum being exact", "anchors": ["serpent/src/back_end/graph_manager.cpp: GraphManager::minimum_key"]}
{"id": "C03", "title": "State getters return the last value set", "statement": "For every history of successful set_pose/set_velocity/set_imu_bias/set_barometer_bias/set_navstate calls, each getter returns the value most recently set (or optimised) for exactly that quantity and key, and throws iff that quantity was never set at that key; setting one quantity or key never changes another (the five symbol families never alias).", "quantifier": "all histories of setters, all non-negative keys, all values", "why_tests_cant": "aliasing between the five key families or between keys can only be excluded for all indices", "anchors": ["serpent/include/serpent/back_end/graph_manager-inl.hpp: add, set, update", "serpent/src/back_end/graph_manager.cpp: set_pose, pose, set_velocity, velocity, imu_bias, barometer_bias, has_pose"]}
{"id": "C04", "title": "The optimiser is handed the current value of a variable", "statement": "At every point of every history, each value waiting to be handed to the optimiser equals the value the getters report for that variable, so overwriting a state before optimisation can never feed a stale initial estimate.", "quantifier": "all histories of setters, stereo insertions, value extractions and optimiser feedback", "why_tests_cant": "needs an invariant between two containers over all histories", "anchors": ["serpent/include/serpent/back_end/graph_manager-inl.hpp: add, set, update", "serpent/src/back_end/graph_manager.cpp: extract_new_values, update_from_values"]}
{"id": "C05", "title": "Every factor reaches the optimiser exactly once, in key order", "statement": "For every history of factor creations and extractions, the factors extracted so far together with the factors still waiting are exactly the factors created (with multiplicity); an extraction with maximum key m returns exactly the waiting factors of keys <= m, ordered by key and then by creation order, and leaves the others waiting.", "quantifier": "all histories of add/create factor calls and extract calls with any maximum keys", "why_tests_cant": "conservation of factors is a statement about all histories", "anchors": ["serpent/src/back_end/graph_manager.cpp: add_factor, extract_new_factors"]}
{"id": "C06", "title": "Factor queries return exactly the stored factors of the range", "statement": "factors(first,last) returns exactly the factors created with keys in [first,last], ordered by key then creation order, whatever was extracted or optimised before; all_factors returns all of them; factors_for_key(k) returns exactly those involving variable k.", "quantifier": "all histories, all ranges including empty, reversed and negative ones", "why_tests_cant": "ranges over all histories and integer ranges", "anchors": ["serpent/src/back_end/graph_manager.cpp: factors(int,int), all_factors, factors_for_key"]}
{"id": "C07", "title": "values(first,last) returns exactly the values of the range", "statement": "values(first,last) is defined and returns exactly the pose, velocity, IMU-bias and barometer-bias values with keys in [first,last] and the stereo landmarks first tracked at keys in [first,last].", "quantifier": "all manager states and all ranges with first <= last", "why_tests_cant": "the defect (iterator run past the end, exact-match landmark search) only shows for particular key layouts and may look fine on one standard library", "anchors": ["serpent/src/back_end/graph_manager.cpp: add_values, values(int,int)"]}
{"id": "C08", "title": "Pending values are extracted exactly once", "statement": "extract_new_values(m) returns exactly the waiting pose/velocity/bias/pressure values with key <= m and the waiting landmarks first tracked at keys <= m, each with its current value, removes exactly those from the waiting set, and no value is ever returned by two extractions.", "quantifier": "all histories of setters, stereo insertions and extractions", "why_tests_cant": "exactly-once delivery is a property of whole histories", "anchors": ["serpent/src/back_end/graph_manager.cpp: extract_new_values, add_values"]}
{"id": "C09", "title": "One stereo factor per observation of a tracked feature", "statement": "Feeding stereo frames with consecutive keys, the graph contains exactly one factor between pose k and landmark id when id was observed in frame k and in frame k-1 or k+1, and none otherwise; the factor carries the pixel observation of frame k.", "quantifier": "all finite sequences of stereo frames with arbitrary feature ids and observations", "why_tests_cant": "depends on runs of arbitrary length and re-acquired ids", "anchors": ["serpent/src/back_end/graph_manager.cpp: create_stereo_factors_and_values"]}
{"id": "C10", "title": "Stereo factors attach an observation to the pose it was observed from", "statement": "For stereo frames given in increasing but not necessarily consecutive keys, every factor that carries the observation made in frame k is attached to pose k.", "quantifier": "all increasing sequences of stereo keys", "why_tests_cant": "fails only for gaps in the key sequence", "anchors": ["serpent/src/back_end/graph_manager.cpp: create_stereo_factors_and_values (X(key_ - 1))"]}
{"id": "C11", "title": "Stereo landmark queries", "statement": "stereo_landmarks(k) returns exactly the landmarks first tracked at key k, each with its current position, stereo_landmarks() returns all landmarks ever tracked, and the query never throws; has_stereo_landmark(id) is true exactly for tracked landmarks.", "quantifier": "all histories of stereo frames, updates and extractions", "why_tests_cant": "needs an invariant tying id lists to stored values over all histories", "anchors": ["serpent/src/back_end/graph_manager.cpp: stereo_landmarks, stereo_landmark, has_stereo_landmark"]}
{"id": "C12", "title": "Timestamps and durations", "statement": "timestamp(k) returns the last timestamp set for k and throws iff none was; time_between(a,b) = -time_between(b,a), time_between(a,a)=0 and time_between(a,b)+time_between(b,c)=time_between(a,c).", "quantifier": "all histories of set_timestamp and all keys", "why_tests_cant": "algebraic laws over all histories", "anchors": ["serpent/src/back_end/graph_manager.cpp: set_timestamp, timestamp, time_between"]}
{"id": "C13", "title": "Feeding back optimised values changes exactly those values", "statement": "update_from_values(v) never adds or removes a variable; it overwrites exactly the variables in v with the values in v and leaves the rest; it throws iff v names a variable that was never set.", "quantifier": "all manager states and all value sets", "why_tests_cant": "frame conditions over all states", "anchors": ["serpent/src/back_end/graph_manager.cpp: update_from_values", "serpent/include/serpent/back_end/graph_manager-inl.hpp: update"]}
{"id": "C14", "title": "After optimise(k) the getters report the optimiser's estimate", "statement": "After a successful optimise(k): opt_key() = k, every getter of a variable held by the optimiser returns the optimiser's estimate, every other getter is unchanged, and no factor with key <= k is still waiting.", "quantifier": "all histories and any optimiser behaviour (estimate function)", "why_tests_cant": "the optimiser is external: the claim must hold for every estimate it can return", "anchors": ["serpent/src/back_end/graph_manager.cpp: ISAM2GraphManager::optimise"]}
{"id": "C15", "title": "The optimiser never sees a factor on an unknown variable, nor a variable twice", "statement": "If each factor is created with a key not smaller than the keys of the states it involves, and the states are set before optimise is called with that key, then every factor handed to the optimiser only involves variables handed over in the same or an earlier call, and no variable or factor is handed over twice.", "quantifier": "all disciplined histories of setters, factor creations and optimise calls with non-decreasing keys", "why_tests_cant": "ISAM2 throws or corrupts when violated; needs an invariant over all call histories", "anchors": ["serpent/src/back_end/graph_manager.cpp: optimise, extract_new_factors, extract_new_values, create_*_factor"]}
{"id": "C16", "title": "Sliding window marginalisation", "statement": "With marginalisation enabled with window w, after optimise(k) exactly the variables of states with key <= k-w have been given to the optimiser for marginalisation, each exactly once, marginalisation_key() = k-w, and a landmark is marginalised no earlier than the first frame that tracks it leaves the window; marginalise(k) with k > opt_key() throws and changes nothing.", "quantifier": "all histories of setters, stereo frames, and optimise/marginalise calls", "why_tests_cant": "involves an unbounded history of window positions", "anchors": ["serpent/src/back_end/graph_manager.cpp: marginalise, optimise, extract_unmarginalised_keys, set_marginalisation", "serpent/include/serpent/back_end/graph_manager-inl.hpp: add"]}
{"id": "C17", "title": "Stereo feature messages become an id-indexed map", "statement": "Converting a stereo feature message yields a map with exactly one entry per feature, keyed by id, with the horizontal coordinates of both images and the mean of the vertical ones; it throws iff two features share an id.", "quantifier": "all feature lists of any length", "why_tests_cant": "duplicate detection ranges over all lists", "anchors": ["serpent/src/back_end/optimisation.cpp: from_ros(vector<StereoFeature>, map)"]}
{"id": "C18", "title": "Registration factors are accepted exactly when their covariance is valid", "statement": "Given a registration message whose covariance is a valid (symmetric, positive-definite) covariance, the back end adds exactly one between-pose factor from the previous to the new registration key; a message with an invalid covariance is rejected with an exception and adds nothing.", "quantifier": "all registration messages and graph states", "why_tests_cant": "the branch taken depends on a numeric predicate over all 6x6 matrices", "anchors": ["serpent/src/back_end/optimisation.cpp: add_registration_factor"]}
{"id": "C19", "title": "Every callback releases the graph mutex", "statement": "On every path out of every back-end callback (normal return, early return on shutdown, exception) the graph mutex is not left locked by that callback.", "quantifier": "all callbacks, all message contents, all outcomes of waits and of throwing operations", "why_tests_cant": "error paths and shutdown races are rarely executed in tests", "anchors": ["serpent/src/back_end/optimisation.cpp: barometer_callback, imu_s2s_callback, registration_callback, stereo_features_callback, initial_odometry_callback", "serpent/src/utils/utilities.cpp: protected_sleep"]}
{"id": "C20", "title": "Back-end callback scheduling optimises every key once, in order", "statement": "For every interleaving of IMU, registration, stereo and barometer callbacks (each enabled only when its wait condition holds), optimise is invoked with keys 1,2,3,... in order without repetition or gap, and never with a key for which a required factor type is still missing.", "quantifier": "all interleavings of callbacks and all enabled-factor configurations", "why_tests_cant": "quantifies over schedules", "anchors": ["serpent/src/back_end/optimisation.cpp: imu_s2s_callback, registration_callback, stereo_features_callback, barometer_callback, initial_odometry_callback"]}
{"id": "C21", "title": "Barometer bias chain is complete", "statement": "For every history of barometer messages, each barometer bias variable that a pressure factor uses is connected to the previous one by exactly one bias random-walk factor and has a value set, with a prior on the first.", "quantifier": "all sequences of barometer messages and graph key progress", "why_tests_cant": "depends on arbitrary lag between barometer and state keys", "anchors": ["serpent/src/back_end/optimisation.cpp: barometer_callback", "serpent/src/back_end/graph_manager.cpp: create_barometric_bias_factor, create_barometric_factor"]}
{"id": "C22", "title": "Published path", "statement": "The published path with maximum key m has exactly the poses of keys 0..m in order, each with its own timestamp and pose; the changed-poses path is exactly the sub-sequence of poses the optimiser reports as changed.", "quantifier": "all graph states and maximum keys", "why_tests_cant": "lengths unbounded", "anchors": ["serpent/src/back_end/optimisation.cpp: convert_to_path, extract_changed_poses"]}
{"id": "C23", "title": "State times are strictly increasing and lie in their sweep", "statement": "For every sequence of pointclouds with strictly increasing stamps and any stereo frame stamps (in increasing order), each new graph state time lies in [start of sweep k, start of sweep k+1) and the state times are strictly increasing.", "quantifier": "all message sequences", "why_tests_cant": "depends on arbitrary interleavings of stereo and lidar stamps", "anchors": ["serpent/src/front_end/frontend.cpp: pointcloud_callback (343-377)"]}
{"id": "C24", "title": "Each state gets exactly one barometer reading stamped with the state time", "statement": "For every interleaving of barometer messages (in stamp order) and graph states, barometer readings are published at most once per state, in state order, stamped exactly with the state time, with a value interpolated between the two measurements that bracket the state time (or the first measurement when none precedes it); once a measurement later than the state time has arrived, no older state is left waiting; no access is made to an absent measurement.", "quantifier": "all interleavings of barometer messages and states", "why_tests_cant": "a queue-vs-queue synchroniser must be right for all interleavings", "anchors": ["serpent/src/front_end/frontend.cpp: barometer_callback, barometer_try_publish, pointcloud_callback (518-522)"]}
{"id": "C25", "title": "IMU arrays cover exactly the state interval", "statement": "The IMU array published for states at times a<b contains, in order, exactly the buffered measurements with stamps in (a,b) preceded by the last measurement with stamp <= a; the measurements that remain buffered suffice for the next interval (its precondition check never fails).", "quantifier": "all IMU stamp sequences and all state times", "why_tests_cant": "boundary coincidences and sparse IMU data", "anchors": ["serpent/src/front_end/frontend.cpp: pointcloud_callback (381-403)", "serpent/src/utils/utilities.cpp: delete_old_measurements"]}
{"id": "C26", "title": "Real-time odometry integrates every IMU measurement exactly once", "statement": "For every interleaving of IMU messages and optimised-odometry messages, the current preintegration consists of exactly the IMU measurements received with stamp later than the latest bias stamp, each once and in order, and the integration intervals add up to (last IMU stamp - bias stamp).", "quantifier": "all interleavings of IMU and optimised odometry callbacks", "why_tests_cant": "quantifies over schedules of concurrent callbacks", "anchors": ["serpent/src/front_end/frontend.cpp: imu_callback, optimised_odometry_callback"]}
{"id": "C27", "title": "IMU interpolation at a time", "statement": "interpolated_imu(t) returns a measurement stamped t obtained from the two adjacent buffered measurements that bracket t, and throws iff fewer than two measurements are buffered or t lies outside the buffered time range.", "quantifier": "all buffers in stamp order and all times", "why_tests_cant": "boundary cases at every buffered stamp", "anchors": ["serpent/src/front_end/frontend.cpp: interpolated_imu", "eigen_ros/src/imu.cpp: interpolate"]}
{"id": "C28", "title": "IMU integration intervals form a partition of the requested interval", "statement": "integrate_imu(measurements, start, end) integrates each measurement for exactly the length of the part of [start,end] during which it is the latest measurement (zero-order hold; the last one holds to end), so the intervals are non-negative and sum to end-start; it throws iff start != end and there are fewer than two measurements or the first is later than start.", "quantifier": "all measurement lists in stamp order, all start <= end", "why_tests_cant": "all relative positions of stamps and interval ends", "anchors": ["serpent/src/utils/utilities.cpp: integrate_imu"]}
{"id": "C29", "title": "Scalar and pressure interpolation", "statement": "Interpolation between (t1,x1) and (t2,x2) at t throws unless t1<t2 and t1<=t<=t2; otherwise it returns x1 at t1, x2 at t2, a value between x1 and x2, monotone in t, and exact for affine signals; pressure interpolation interpolates pressure and variance and stamps the result with t.", "quantifier": "all real inputs", "why_tests_cant": "real-valued law", "anchors": ["serpent/include/serpent/utils/utilities-inl.hpp: interpolate", "serpent/src/utils/utilities.cpp: interpolate_pressure"]}
{"id": "C30", "title": "delete_old_measurements keeps exactly the recent ones", "statement": "After delete_old_measurements(buffer, t) on a buffer in stamp order, the buffer is exactly the measurements with stamp >= t in the original order.", "quantifier": "all buffers and times", "why_tests_cant": "boundary equality", "anchors": ["serpent/src/utils/utilities.cpp: delete_old_measurements"]}
{"id": "C31", "title": "Waiting helper", "statement": "protected_sleep returns true only at a moment when the wait condition is false and (if requested) with the mutex held by the caller; it evaluates the condition only while holding the mutex; when it returns false the process is shutting down; it always leaves the mutex in the state that the leave_locked flag promises.", "quantifier": "all schedules of condition changes and shutdown", "why_tests_cant": "race conditions between condition and shutdown", "anchors": ["serpent/src/utils/utilities.cpp: protected_sleep"]}
{"id": "C32", "title": "Frames are added to the map exactly when they moved enough", "statement": "A new frame is added to the map iff the map is empty or its translation distance or its rotation angle relative to the last map frame exceeds the configured threshold (strictly).", "quantifier": "all poses, thresholds and map states", "why_tests_cant": "decision over reals", "anchors": ["serpent/include/serpent/mapping/mapping-inl.hpp: should_add_to_map, add_to_map"]}
{"id": "C33", "title": "Local map from past frames", "statement": "extracting n past frames at time t returns the n most recent map frames not later than t, newest first (all of them if fewer), and never reads outside the map.", "quantifier": "all maps, n and t", "why_tests_cant": "boundary cases: t before every frame, n larger than the map", "anchors": ["serpent/include/serpent/mapping/mapping-inl.hpp: extract_past_frames"]}
{"id": "C34", "title": "Local map from nearby frames", "statement": "extracting n nearby frames returns the (at most n) map frames closest to the query pose, each the frame stored in the map at that pose; every returned timestamp is in the map.", "quantifier": "all histories of map insertions and updates", "why_tests_cant": "needs an invariant between three parallel containers over all histories", "anchors": ["serpent/include/serpent/mapping/mapping-inl.hpp: extract_nearby_frames, add_to_map, update_map"]}
{"id": "C35", "title": "Pose-graph updates move exactly the map frames they name", "statement": "update_map(changes) sets the pose of every map frame whose timestamp occurs in the changes to the new pose, leaves the other frames and all pointclouds unchanged, and keeps the nearest-neighbour index consistent with the map.", "quantifier": "all maps and change lists", "why_tests_cant": "frame condition over all maps", "anchors": ["serpent/include/serpent/mapping/mapping-inl.hpp: update_map, map_update_callback"]}
{"id": "C36", "title": "Frame tree transforms compose", "statement": "For frames a,b,c known to a BodyFrames object: frame_to_frame(a,a) is the identity, frame_to_frame(a,b) is the inverse of frame_to_frame(b,a), and frame_to_frame(a,b)*frame_to_frame(b,c) = frame_to_frame(a,c); body_to_frame of a nested frame is the product of the configured transforms along its path.", "quantifier": "all frame trees of any depth and all frames", "why_tests_cant": "unbounded tree depth", "anchors": ["eigen_ros/src/body_frames.cpp: frame_to_frame, body_to_frame, frame_to_body, process_frames, transform_from_node"]}
{"id": "C37", "title": "Frame names are unique", "statement": "Construction from a configuration tree succeeds only if all frame names, ids and aliases that index a frame are pairwise distinct, it then indexes every configured frame, and each lookup by id or alias returns the same frame; on a duplicate it throws.", "quantifier": "all configuration trees", "why_tests_cant": "unbounded trees", "anchors": ["eigen_ros/src/body_frames.cpp: process_frames, add_frame_strings, add_frame_transforms"]}
{"id": "C38", "title": "Covariance reordering is a permutation of the state", "statement": "reorder_covariance(C,b) swaps the first b state components with the rest: entry (i,j) of the result is entry (pi(i),pi(j)) of C; doing it with the complementary boundary restores C; symmetry, positive (semi)definiteness, and the multiset of variances are preserved; it throws iff b is 0 or >= size or C is not square.", "quantifier": "all sizes, boundaries and matrices", "why_tests_cant": "all sizes and real entries", "anchors": ["eigen_ext/include/eigen_ext/covariance.hpp: reorder_covariance"]}
{"id": "C39", "title": "Covariance frame changes preserve validity and compose", "statement": "change_covariance_frame with a transform's adjoint maps symmetric positive-(semi)definite matrices to symmetric positive-(semi)definite matrices; changing A->B->C equals changing A->C; changing back restores the covariance; transform_adjoint(T1*T2) = transform_adjoint(T1)*transform_adjoint(T2). compose_transform_covariance gives the covariance that an optimiser reports for the end of a chain of uncertain motions: its information is that of the least total squared error over the intermediate poses.", "quantifier": "all rigid transforms and all 6x6 real matrices", "why_tests_cant": "real-valued law", "anchors": ["eigen_ext/include/eigen_ext/geometry.hpp: transform_adjoint, change_covariance_frame, compose_transform_covariance"]}
{"id": "C40", "title": "Relative transforms change frame by conjugation", "statement": "change_relative_transform_frame(T, X) gives the same physical motion expressed in the other rigidly attached frame: it maps identity to identity, products to products, inverses to inverses, and changing with X then X^-1 restores T; relative_transform(A,B) is the unique T with A*T = B. The angle of a motion is the same in all frames.", "quantifier": "all rigid transforms", "why_tests_cant": "real-valued law", "anchors": ["eigen_ext/include/eigen_ext/geometry.hpp: change_relative_transform_frame, relative_transform, to_transform"]}
{"id": "C41", "title": "Skew-symmetric helper", "statement": "skew_symmetric(a)*b = a x b for all a,b, its result is skew-symmetric, from_skew_symmetric inverts it, and from_skew_symmetric throws for every matrix that is not skew-symmetric.", "quantifier": "all real vectors and 3x3 matrices", "why_tests_cant": "real-valued law", "anchors": ["eigen_ext/include/eigen_ext/matrix.hpp: skew_symmetric, from_skew_symmetric"]}
{"id": "C42", "title": "Covariance validity test", "statement": "is_valid_covariance(C) is true exactly for square symmetric positive-definite matrices (within the symmetry tolerance) and is_symmetric(C, tol) is true exactly when C is square and every |C_ij - C_ji| is within tolerance.", "quantifier": "all sizes and real entries", "why_tests_cant": "all sizes", "anchors": ["eigen_ext/include/eigen_ext/covariance.hpp: is_valid_covariance", "eigen_ext/include/eigen_ext/matrix.hpp: is_symmetric, is_positive_definite, non_zero_diagonals"]}
{"id": "C43", "title": "Rates from a transform", "statement": "linear_rates(T, dt) throws iff dt <= 0; otherwise it returns translation/dt and rotation-vector/dt, and is positively homogeneous in 1/dt. Rates of motions that turn less than half a turn are recovered exactly; no slower turn reaches the same pose.", "quantifier": "all transforms and durations", "why_tests_cant": "real-valued law", "anchors": ["eigen_ext/include/eigen_ext/geometry.hpp: linear_rates"]}
{"id": "C44", "title": "Polar coordinates round trip", "statement": "For every non-zero point, cartesian_to_polar returns range, azimuth and elevation from which the point can be reconstructed; the range is the Euclidean norm.", "quantifier": "all real points", "why_tests_cant": "fails on most inputs but any single-axis unit test can pass", "anchors": ["eigen_ext/include/eigen_ext/geometry.hpp: cartesian_to_polar", "pointcloud_tools/include/pointcloud_tools/impl/pclpointcloud2_utilities.hpp: polar_coordinates"]}
{"id": "C45", "title": "Point covariance rotation", "statement": "rotate_point_covariance(C,R) = R C R^T for the packed symmetric representation: preserves symmetry, positive semidefiniteness, trace and determinant, and rotating by R1 then R2 equals rotating by R2*R1.", "quantifier": "all rotations and covariances", "why_tests_cant": "real-valued law", "anchors": ["eigen_ext/include/eigen_ext/geometry.hpp: rotate_point_covariance", "pointcloud_tools/include/pointcloud_tools/impl/pclpointcloud_transform.hpp"]}
{"id": "C46", "title": "Message conversions round trip", "statement": "Converting pose, twist, odometry, IMU, vector, quaternion, isometry and covariance values to ROS messages and back returns the original value (including the rotation/translation block reordering of 6x6 covariances), and the message arrays are row-major.", "quantifier": "all values", "why_tests_cant": "index arithmetic over all entries", "anchors": ["eigen_ros/src/geometry_msgs.cpp", "eigen_ros/src/imu.cpp", "eigen_ros/src/pose.cpp", "eigen_ros/src/odometry.cpp", "eigen_ros/src/twist.cpp", "eigen_ros/include/eigen_ros/eigen_ros.hpp"]}
{"id": "C47", "title": "Multi-array matrix conversion", "statement": "Converting any matrix to a Float64MultiArray and back returns the matrix, also when the message object is reused for several conversions.", "quantifier": "all sizes and matrices, all re-use histories", "why_tests_cant": "re-use of a message object needs a history", "anchors": ["eigen_ros/include/eigen_ros/std_msgs.hpp"]}
{"id": "C48", "title": "Applying a sequence of increments composes the pose", "statement": "Applying relative transforms T1..Tn one after another to an odometry or pose yields pose*T1*...*Tn; applying the identity changes nothing; the published path has one pose per increment, the prefix products.", "quantifier": "all sequences of transforms", "why_tests_cant": "unbounded sequences", "anchors": ["eigen_ros/src/pose.cpp: apply_transform", "navigation_tools/src/combine_transforms.cpp: combine"]}
{"id": "C49", "title": "IMU interpolation and frame change", "statement": "interpolate(imu1, imu2, t) throws outside [t1,t2], returns imu1 at t1 and imu2's readings at t2, is componentwise between the two, and takes metadata (covariances, frame) from the nearer measurement; change_frame rotates all vectors by the rotation and changing back restores the measurement.", "quantifier": "all measurements and times", "why_tests_cant": "real-valued law", "anchors": ["eigen_ros/src/imu.cpp: interpolate, change_frame"]}
{"id": "C50", "title": "Feature ids are never reused", "statement": "For every sequence of stereo frames and every outcome of feature detection, optical flow and matching: within a frame all match ids are distinct and increasing; each id in a frame is either carried over from the immediately preceding frame or fresh (never used before), so an id that disappears never reappears.", "quantifier": "all frame sequences and all behaviours of the vision primitives", "why_tests_cant": "quantifies over histories and over the external detectors", "anchors": ["serpent/src/front_end/stereo/stereo_feature_tracker.cpp: process, track_previous_keypoints, create_filtered_new_matches"]}
{"id": "C51", "title": "Tracker output is index-consistent", "statement": "In every tracker output the left keypoints, right keypoints, matches and ids have equal lengths and the i-th match refers to the i-th left and i-th right keypoint; the number of matches is tracked + new; every tracked match satisfies the stereo geometry filter.", "quantifier": "all frame sequences and all behaviours of the vision primitives", "why_tests_cant": "index bookkeeping over all histories", "anchors": ["serpent/src/front_end/stereo/stereo_feature_tracker.cpp: process, extract_matched_keypoints, append_keypoint_matches"]}
{"id": "C52", "title": "Match filters keep exactly the admissible matches", "statement": "Each filter returns, in order, exactly the input matches that satisfy its predicate (distance <= threshold; left x strictly greater than right x and vertical difference within threshold; depth within [min,max]) and the indices of exactly those; it throws iff a match index is out of range.", "quantifier": "all match lists and keypoints", "why_tests_cant": "list-level exactness", "anchors": ["serpent/src/front_end/stereo/match_filters.cpp: DistanceMatchFilter::filter, StereoMatchFilter::filter, StereoDistanceFilter::filter"]}
{"id": "C53", "title": "Stereo matching picks the best admissible candidate", "statement": "keypoint_index_in_other_image returns an index only for a candidate that satisfies the epipolar, disparity-sign and window constraints and has minimal cost among the admissible candidates (first one on ties), and -1 if there is none; with the ratio test, it returns an index only if the best cost is less than ratio times the second best cost.", "quantifier": "all images, keypoint lists and cost functions", "why_tests_cant": "depends on the order of candidates", "anchors": ["serpent/src/front_end/stereo/stereo_keypoint_matcher.cpp: keypoint_index_in_other_image"]}
{"id": "C54", "title": "Bidirectional matching is one-to-one", "statement": "With bidirectional filtering every reported match is mutual: left i matched to right j implies right j's best is left i; no right keypoint is matched to two left keypoints.", "quantifier": "all images and keypoint lists", "why_tests_cant": "quantifies over all cost functions and list sizes", "anchors": ["serpent/src/front_end/stereo/stereo_keypoint_matcher.cpp: keypoint_indices_in_other_image"]}
{"id": "C55", "title": "Window cost functions", "statement": "SAD, SSD, ZMSAD, LSSAD costs are non-negative and zero for identical windows, SAD and SSD are symmetric and zero only for identical windows, and evaluating them reads only defined memory whenever both windows lie inside the images.", "quantifier": "all images, window sizes and positions", "why_tests_cant": "uninitialised accumulators may read zero in tests", "anchors": ["serpent/src/front_end/stereo/stereo_cost_functions.cpp", "serpent/src/front_end/stereo/window_functions.cpp"]}
{"id": "C56", "title": "Stereo projection and backprojection are inverse", "statement": "For every camera with positive focal length and baseline, projecting the backprojection of a feature with non-zero disparity returns the feature, and backprojecting the projection of a point with positive depth returns the point; zero disparity throws.", "quantifier": "all real cameras, points and features", "why_tests_cant": "real-valued law; an out-of-bounds read may look right in a test", "anchors": ["serpent/include/serpent/front_end/stereo/stereo_equations-inl.hpp: stereo_project, stereo_backproject"]}
{"id": "C57", "title": "filter_max keeps exactly the points not above the maximum", "statement": "filter_max(src, dest, field, max) produces the points of src whose field value is <= max, in order and byte-identical, with consistent width/height/row_step/data size.", "quantifier": "all pointclouds, fields and maxima", "why_tests_cant": "byte-level claim for all layouts", "anchors": ["pointcloud_tools/include/pointcloud_tools/impl/pclpointcloud2_utilities.hpp: filter_max"]}
{"id": "C58", "title": "Field reads and writes", "statement": "Reading a field after writing it returns the written value; writing one field of one point changes no byte outside that field of that point; get_field returns the first field with the name and throws iff absent.", "quantifier": "all field layouts, points and values", "why_tests_cant": "byte-level non-interference", "anchors": ["pointcloud_tools/include/pointcloud_tools/impl/pclpointcloud2_utilities.hpp: field_data, set_field_data, create_get_field_data_function", "pointcloud_tools/src/pclpointcloud2_utilities.cpp: get_field, has_field"]}
{"id": "C59", "title": "Adding fields preserves the existing data", "statement": "add_fields returns a cloud with the original fields followed by the requested ones, where every original field of every point has its original bytes, new fields do not overlap existing ones, and no byte outside the buffers is accessed.", "quantifier": "all field layouts (including padding and unordered offsets)", "why_tests_cant": "memory-layout dependent", "anchors": ["pointcloud_tools/src/pclpointcloud2_utilities.cpp: add_fields, add_unit_vectors"]}
{"id": "C60", "title": "Field statistics", "statement": "max/min return an attained extreme value, mean and variance are the arithmetic mean and population variance, for every non-empty cloud, and min/max throw for an empty cloud; statistics agrees with them.", "quantifier": "all value lists", "why_tests_cant": "all sizes", "anchors": ["pointcloud_tools/include/pointcloud_tools/impl/pclpointcloud2_utilities.hpp: max, min, mean, sum, variance", "pointcloud_tools/src/pclpointcloud2_utilities.cpp: statistics"]}
{"id": "C61", "title": "Deskewing", "statement": "deskew expresses each point in the sensor frame at the requested time: a point measured at that time is unchanged, with zero relative motion no point changes, point times are reset so that every point is at the new stamp, and the header stamp is the new time.", "quantifier": "all clouds, skews and times", "why_tests_cant": "depends on each point's time", "anchors": ["pointcloud_tools/src/pclpointcloud2_utilities.cpp: deskew"]}
{"id": "C62", "title": "Casting and scaling a field", "statement": "cast/scale of a field replaces each point's field value v by scale*v in the new type, changes nothing else, and throws iff the type sizes differ; scaling is applied also when the type is already the requested one.", "quantifier": "all clouds and scales", "why_tests_cant": "the skipped branch depends on the field's stored type", "anchors": ["pointcloud_tools/include/pointcloud_tools/impl/pclpointcloud2_utilities.hpp: cast_field, cast_field_with_scale, scale_and_cast_field", "pointcloud_tools/src/pclpointcloud2_utilities.cpp: scale_field"]}
{"id": "C63", "title": "Pointcloud filter chain publishes its output", "statement": "For every combination of enabled filters, a cloud published on the input topic passes through exactly the enabled filters in the fixed order and arrives exactly once on the output topic.", "quantifier": "all 2^5 filter configurations and all message sequences", "why_tests_cant": "the all-disabled configuration is easily overlooked", "anchors": ["serpent/src/front_end/lidar/pointcloud_filter.cpp"]}
{"id": "C64", "title": "One refined transform per cloud", "statement": "With scan-to-map enabled, for every interleaving of scan and map callbacks the refined transforms are published in scan order, each stamped with its own scan and initialised with its own scan-to-scan result; the pending scans and results are always paired; without scan-to-map each scan after the first yields exactly one transform.", "quantifier": "all interleavings of s2s and s2m callbacks", "why_tests_cant": "quantifies over schedules", "anchors": ["serpent/include/serpent/front_end/lidar/registration-inl.hpp: s2s_callback, s2m_callback, publish_refined_transform"]}
{"id": "C65", "title": "Linearised ICP derivatives are exact", "statement": "For the linearised point-to-point and point-to-plane models, the per-correspondence matrices are exactly half the Hessian with respect to the pose increment and half the mixed derivative with respect to pose increment and measured points of the squared residual.", "quantifier": "all points, normals, rotations vectors and translations", "why_tests_cant": "real-valued identity", "anchors": ["serpent/include/serpent/front_end/lidar/registration_covariance-inl.hpp: PointToPointIcpLinearisedModel, PointToPlaneIcpLinearisedModel"]}
{"id": "C66", "title": "Registration covariances are valid covariances", "statement": "For every set of correspondences with invertible Hessian, the CENSI and LLS covariances are symmetric and positive semidefinite, scale linearly with the variances, and exist exactly if the Hessian is invertible; the CENSI covariances are those propagated to first order from the measurements to the minimising pose, so that using half derivatives makes no difference, and the LLS covariance is the variance times the inverse of half the Hessian.", "quantifier": "all correspondence sets", "why_tests_cant": "all sizes and real entries", "anchors": ["serpent/include/serpent/front_end/lidar/registration_covariance-inl.hpp: censi_iid_covariance, censi_range_covariance, censi_range_bias_covariance, lls_iid_covariance"]}
{"id": "C67", "title": "Range-bias covariance generalises range covariance", "statement": "The range-with-bias covariance with zero bias variance equals the range covariance.", "quantifier": "all correspondence sets and variances", "why_tests_cant": "matrix identity over all entries", "anchors": ["serpent/include/serpent/front_end/lidar/registration_covariance-inl.hpp: censi_range_bias_covariance, censi_range_covariance"]}
{"id": "C68", "title": "Image operations and camera info agree", "statement": "Each rotation or flip transforms the camera intrinsics so that a point projects to the transformed pixel position; four quarter turns, or a quarter turn and its opposite, or a flip applied twice, are the identity; any angle that is not a positive multiple of 90 degrees modulo 360 is rejected.", "quantifier": "all images, camera infos and operation sequences", "why_tests_cant": "group laws over all sequences; the uninitialised option may look right in tests", "anchors": ["camera_tools/src/image_operations.cpp", "camera_tools/src/split_image.cpp"]}
{"id": "C69", "title": "Option names round trip", "statement": "For every covariance method, model and point-covariance method, parsing its printed name returns it; unknown names throw; unit vectors are required exactly for range-based point covariance with an estimated covariance.", "quantifier": "all option values and all strings", "why_tests_cant": "all strings", "anchors": ["serpent/src/front_end/lidar/registration_covariance.cpp"]}
{"id": "C70", "title": "Repaired timestamps", "statement": "The timestamp repair leaves non-zero stamps unchanged and replaces each zero stamp by the previous (repaired) stamp plus the period, leaving no zero stamp except possibly none; message order and count are preserved.", "quantifier": "all bag message sequences", "why_tests_cant": "unbounded runs of missing stamps", "anchors": ["snowboard/scripts/repair_ouster_timestamps.py"]}
{"id": "C71", "title": "Nonlinear ICP derivatives are exact", "statement": "For the nonlinear point-to-point and point-to-plane models the per-correspondence matrices are exactly half the Hessian and half the mixed derivative of the squared residual with rotation-vector parametrisation.", "quantifier": "all points, normals, non-zero rotation vectors and translations", "why_tests_cant": "4000 lines of generated formulas; tests sample a few transforms", "anchors": ["serpent/include/serpent/front_end/lidar/registration_covariance-inl.hpp: PointToPointIcpNonlinearModel, PointToPlaneIcpNonlinearModel"]}
{"id": "C72", "title": "Front end and back end do not deadlock", "statement": "For every interleaving of front-end and back-end callbacks with sufficient sensor data, some callback whose wait is unsatisfied eventually can proceed: no reachable state has all threads waiting on one another, in each supported factor configuration.", "quantifier": "all schedules and configurations", "why_tests_cant": "deadlock freedom quantifies over schedules", "anchors": ["serpent/src/front_end/frontend.cpp: pointcloud_callback waits", "serpent/src/back_end/optimisation.cpp: imu_s2s_callback, registration_callback, stereo_features_callback waits"]}
{"id": "C73", "title": "All messages of a state carry the same stamp", "statement": "Whenever no pointcloud is being processed, the deskewed pointclouds published are stamped exactly with the state times sent to the back end, one per state and in order; with only_graph_frames every stereo frame passed on is stamped with a state time, at most one per state and in order.", "quantifier": "all interleavings of sensor, optimiser and pointcloud callbacks", "why_tests_cant": "the back end matches messages by exact stamp equality, so one off-by-rounding stamp in any schedule blocks it", "anchors": ["serpent/src/front_end/frontend.cpp: pointcloud_callback, stereo_callback"]}
{"id": "C74", "title": "One real-time odometry message per IMU message", "statement": "Once biases are known, every IMU message gives exactly one real-time odometry message stamped with the IMU stamp, in order, and no other event gives one.", "quantifier": "all interleavings after the first optimised odometry", "why_tests_cant": "quantifies over schedules", "anchors": ["serpent/src/front_end/frontend.cpp: imu_callback"]}
{"id": "C75", "title": "Deskewing never fails on covered sweeps", "statement": "When IMU data covers the interval from the previous state to the end of the sweep, processing a pointcloud completes without an exception, whatever the stamps.", "quantifier": "all stamp sequences", "why_tests_cant": "the failure needs an exact coincidence of two stamps", "anchors": ["serpent/src/front_end/frontend.cpp: pointcloud_callback (461-488)", "serpent/src/utils/utilities.cpp: integrate_imu"]}
{"id": "C76", "title": "No IMU measurement is lost between states", "statement": "Every IMU measurement with a stamp strictly between two consecutive states is contained in the IMU array of that interval.", "quantifier": "all interleavings of IMU and pointcloud callbacks", "why_tests_cant": "depends on late arrival relative to the pointcloud callback", "anchors": ["serpent/src/front_end/frontend.cpp: pointcloud_callback (381-406)"]}
{"id": "C77", "title": "Pointclouds are deskewed only with the data that is needed", "statement": "A deskewed pointcloud is published only for the state sent last, stamped with its time, and only after IMU measurements up to the end of the sweep and the biases optimised for the previous state have been received.", "quantifier": "all interleavings of the front end's callbacks", "why_tests_cant": "the order in which callbacks run is decided by the scheduler and by message latencies", "anchors": ["serpent/src/front_end/frontend.cpp: pointcloud_callback, imu_callback, optimised_odometry_callback"]}
{"id": "C78", "title": "Which stereo frame becomes a state", "statement": "With stereo enabled, the state of a sweep is the first received stereo frame that is not earlier than the start of the sweep, if that frame is earlier than the next sweep, and otherwise the start of the sweep; without stereo it is always the start of the sweep. No frame is skipped because an earlier sweep has removed it.", "quantifier": "all interleavings of stereo frames, pointclouds and the other messages", "why_tests_cant": "the set of buffered frames depends on the whole history", "anchors": ["serpent/src/front_end/frontend.cpp: pointcloud_callback, stereo_callback"]}
{"id": "C79", "title": "The first state is created when the data covers it", "statement": "Once the pointcloud callback creates the first state, it succeeds whenever an IMU measurement earlier than the state has been received: it has waited for one that is not earlier.", "quantifier": "all interleavings of the front end's callbacks", "why_tests_cant": "depends on which messages had arrived when the wait ended", "anchors": ["serpent/src/front_end/frontend.cpp: pointcloud_callback, interpolated_imu"]}
{"id": "C80", "title": "Safe normalisation", "statement": "safe_normalise(v) throws exactly when v is the zero vector; otherwise it returns the only vector of length one that is a positive multiple of v.", "quantifier": "all real vectors of any length", "why_tests_cant": "Infinitely many vectors; a test only tries some directions.", "anchors": ["eigen_ext/include/eigen_ext/matrix.hpp: safe_normalise, safe_normalised"]}
{"id": "C81", "title": "Transform components from a rotation vector", "statement": "PrecomputedTransformComponents(r, t) holds the rotation about the direction of r by the angle |r| (orthogonal, determinant one, r is fixed), the translation t, and the sine and cosine of the angle, for every r including the zero vector.", "quantifier": "all rotation vectors and translations", "why_tests_cant": "Infinitely many rotation vectors; the boundary r = 0 is a division by zero.", "anchors": ["eigen_ext/include/eigen_ext/precomputed_transform_components.hpp: PrecomputedTransformComponents"]}
{"id": "C82", "title": "Point cloud transformation", "statement": "transform_pointcloud_with_normals_and_{unit_vectors,covariances} keeps header, size, order and all other fields, transforms every finite position, rotates its normal, unit vector and covariance (R C R^T), leaves points that are not finite as they are, composes, and is undone by the inverse transform; in place and out of place alike.", "quantifier": "all clouds, transforms, and output clouds", "why_tests_cant": "Clouds are unbounded and may be passed in place or with stale output contents.", "anchors": ["pointcloud_tools/include/pointcloud_tools/impl/pclpointcloud_transform.hpp: transform_pointcloud_with_normals_and_unit_vectors, transform_pointcloud_with_normals_and_covariances", "pointcloud_tools/include/pointcloud_tools/point_types.hpp: getCovarianceMatrix, setCovariance"]}
{"id": "C83", "title": "Global map and pose graph contain the whole map", "statement": "The global map service publishes, in the map frame, the points of every map frame moved by its pose, in time order, voxel filtered iff filtering of the global map is enabled; the pose graph service publishes for every map frame its cloud and its pose, with matching stamps, in time order.", "quantifier": "all histories of map updates and service calls", "why_tests_cant": "the map is unbounded and depends on the whole history", "anchors": ["serpent/include/serpent/mapping/mapping-inl.hpp: publish_map_service_callback, publish_pose_graph_service_callback"]}
{"id": "C84", "title": "Local maps are in the lidar frame of the new cloud", "statement": "A published local map carries the stamp of the cloud and the lidar frame; moved to the map by the lidar pose of the cloud its points (before voxel filtering) are the points of map frames moved by their own map poses, and points of a frame at that pose are unchanged.", "quantifier": "all rigid poses, clouds and histories", "why_tests_cant": "infinitely many poses; history dependent contents", "anchors": ["serpent/include/serpent/mapping/mapping-inl.hpp: map_update_callback, transformed_pointcloud, extract_nearby_frames, extract_past_frames"]}
{"id": "C85", "title": "Static transforms of the frame tree", "statement": "The broadcaster of the frame tree sends, as static transforms, exactly the transform from the body to each configured frame that is neither looked up nor moving, and the identity from the frame id of each frame to each of its aliases; no frame id is the child of two of them, and starting it never fails once the tree has been read.", "quantifier": "all configuration trees and all answers of the transform listener", "why_tests_cant": "unbounded trees, and the listener answers differently at different times", "anchors": ["eigen_ros/src/body_frames_tf.cpp: BodyFramesTf::BodyFramesTf"]}
{"id": "C86", "title": "Matrix parameters", "statement": "Reading a 3x3 matrix parameter yields the identity if the parameter is missing, the matrix of its first nine numbers in row-major order if it has at least nine, and throws if it has fewer.", "quantifier": "all parameter servers and parameter lists", "why_tests_cant": "list-length dependent", "anchors": ["eigen_ros/src/eigen_ros.cpp: matrix3d_from_param"]}
{"id": "C87", "title": "Changing the camera of a distance filter", "statement": "After set_fx and set_baseline in any order, the stereo distance filter accepts exactly the matches whose depth fx * b / disparity is within its limits for the new focal length and baseline.", "quantifier": "all filters, focal lengths and baselines, in both orders of calls", "why_tests_cant": "reading members without a value may look right in a test", "anchors": ["serpent/src/front_end/stereo/match_filters.cpp: StereoDistanceFilter::set_fx, set_baseline", "serpent/include/serpent/front_end/stereo/match_filters.hpp: StereoDistanceFilter"]}
{"id": "C88", "title": "Search along the line of a keypoint", "statement": "keypoint_in_other_image returns the centre of a window in the row of the keypoint, on the correct side and inside of the other image, with minimal cost (the closest one on ties), and no match exactly if the window of the keypoint is not inside of its image; with bidirectional filtering only if no window of the first image fits better; the list version gives one result per keypoint.", "quantifier": "all images, keypoints, window sizes and cost functions", "why_tests_cant": "depends on every pixel of the row", "anchors": ["serpent/src/front_end/stereo/stereo_keypoint_matcher.cpp: keypoint_in_other_image, keypoints_in_other_image"]}
{"id": "C89", "title": "Tracked features follow the optical flow", "statement": "In consecutive processed frames the features that keep their id are exactly those that the optical flow from the previous to the current images finds in both images at places that satisfy the stereo geometry and depth limits, and they are reported at those places, whatever frames before failed.", "quantifier": "all frame sequences and behaviours of the vision algorithms, including exceptions", "why_tests_cant": "quantifies over histories with failures", "anchors": ["serpent/src/front_end/stereo/stereo_feature_tracker.cpp: process, track_previous_keypoints"]}
{"id": "C90", "title": "New features", "statement": "The new features of a frame are exactly the pairs the matcher finds among detected keypoints that are farther than the minimum distance from every feature found by the flow, with a cost below the threshold and a depth within limits.", "quantifier": "all frame sequences and behaviours of the vision algorithms", "why_tests_cant": "quantifies over detectors, flows and matchers", "anchors": ["serpent/src/front_end/stereo/stereo_feature_tracker.cpp: process, remove_close_keypoints, create_filtered_new_matches"]}
{"id": "C91", "title": "Published features have positive disparity", "statement": "In every feature that the tracker reports, the left coordinate is greater than the right one.", "quantifier": "all frame sequences and behaviours of the vision algorithms", "why_tests_cant": "needs an image pair that matches at the same column", "anchors": ["serpent/src/front_end/stereo/stereo_feature_tracker.cpp: process", "serpent/src/front_end/stereo/stereo_keypoint_matcher.cpp: keypoint_index_in_other_image"]}
{"id": "C92", "title": "Tracker statistics", "statement": "The statistics of a frame give the number of the frame, the numbers of tracked, new and all matches, the ids, the highest id given out and the id tracked longest; every count has a value.", "quantifier": "all frame sequences and behaviours of the vision algorithms", "why_tests_cant": "unset members read as plausible numbers in tests", "anchors": ["serpent/src/front_end/stereo/stereo_feature_tracker.cpp: process", "serpent/src/front_end/stereo/stereo_factor_finder.cpp: to_ros"]}
{"id": "C93", "title": "Messages of the stereo node", "statement": "Every published feature message has distinct increasing ids and is accepted by the back end; an id that is missing in a message after it was published is never published again; the published points are the points that the cameras see at the features with a disparity.", "quantifier": "all sequences of image and camera parameter messages, including callbacks that throw", "why_tests_cant": "quantifies over histories", "anchors": ["serpent/src/front_end/stereo/stereo_factor_finder.cpp: stereo_callback, to_ros", "serpent/src/back_end/optimisation.cpp: from_ros"]}
{"id": "C94", "title": "The stereo node reads only images it holds", "statement": "No callback of the stereo node reads image data of messages that may be released, or values that were never set, whatever happened in callbacks before.", "quantifier": "all sequences of image and camera parameter messages, including callbacks that throw", "why_tests_cant": "released memory often still has the old content in tests", "anchors": ["serpent/src/front_end/stereo/stereo_factor_finder.cpp: stereo_callback", "serpent/src/front_end/stereo/stereo_feature_tracker.cpp: process"]}
{"id": "C95", "title": "The declared byte order is respected", "statement": "Reading a field of a cloud gives the number that the bytes of the field stand for in the byte order that the cloud declares.", "quantifier": "every cloud, field, point and declared byte order", "why_tests_cant": "Tests are run on little-endian clouds only; the claim is about every cloud.", "anchors": ["pointcloud_tools/include/pointcloud_tools/impl/pclpointcloud2_utilities.hpp: field_data, create_get_field_data_function"]}
{"id": "C96", "title": "Adding unit vectors", "statement": "add_unit_vectors returns the source cloud with three more fields ux, uy, uz that hold, in every point, the direction of the point; nothing else of any point changes; a point at the origin is refused.", "quantifier": "every cloud with coordinate fields, every layout of its fields", "why_tests_cant": "The layouts, sizes and coordinates of clouds are unbounded.", "anchors": ["pointcloud_tools/src/pclpointcloud2_utilities.cpp: add_unit_vectors, add_fields"]}
{"id": "C97", "title": "Accepted registration configurations can compute covariances", "statement": "If the constructor of the registration accepts a configuration (method, model and point covariance method, and the point type of the cloud), then the covariance of every later registration is computed by the function the names ask for, from parameters that were set: no empty function is called, no null pointer or unset member is read, and the function does not refuse the point type. A configuration that the constructor cannot serve is refused at construction.", "quantifier": "every combination of covariance method, covariance model, point covariance method and point type", "why_tests_cant": "Tests exercise single combinations; the claim is about every combination of four enumerations and the run-time state of members set in different branches of the constructor.", "anchors": ["serpent/include/serpent/front_end/lidar/registration-inl.hpp: Registration, s2s_callback, s2m_callback", "serpent/include/serpent/front_end/lidar/registration.hpp"]}
{"id": "C98", "title": "Every scan is registered against the local map made for it", "statement": "Scan-to-map registration pairs each scan with the local map that was published for that scan, in order, whatever the arrival order of scans and maps, and also if a map is lost.", "quantifier": "every sequence of arrivals of scans and local maps", "why_tests_cant": "The pairing depends on the interleaving of two streams of messages and on losses.", "anchors": ["serpent/include/serpent/front_end/lidar/registration-inl.hpp: s2m_callback, map_callback"]}
{"id": "C99", "title": "A published registration result is the motion of the body frame", "statement": "For every lidar motion T, extrinsic X (body to lidar) and covariance S of the method, the published pose is X T X^-1, the published covariance is that of the body motion (adjoint of X applied on both sides) with the translation first as ROS requires, and the stamp is that of the later scan.", "quantifier": "every transform, extrinsic and covariance matrix", "why_tests_cant": "Algebraic identity over all rigid transforms and all 6x6 matrices.", "anchors": ["serpent/include/serpent/front_end/lidar/registration-inl.hpp: publish_refined_transform"]}
{"id": "C100", "title": "check_normals counts exactly the normals that are not of unit length", "statement": "check_normals returns the number of points whose normal has a length that differs from 1 by more than the threshold, and throws if a normal component is missing from the cloud.", "quantifier": "every well formed cloud and every threshold", "why_tests_cant": "Ranges over clouds of every size and layout.", "anchors": ["pointcloud_tools/src/pclpointcloud2_utilities.cpp: check_normals"]}
{"id": "C101", "title": "The formatter publishes every cloud once, with times in seconds and ranges in metres", "statement": "Every input cloud (after the first one, if its removal is enabled) is published exactly once and in order, in the lidar frame and with its own stamp. Times and ranges of Ouster clouds are converted to seconds and metres, all other fields are unchanged, and with the time filter the published points are exactly those with a time not above the maximum.", "quantifier": "every sequence of clouds, every layout of the fields and every configuration", "why_tests_cant": "Ranges over sequences of clouds of every size and layout of the points.", "anchors": ["serpent/src/front_end/lidar/pointcloud_formatter.cpp: format"]}
{"id": "C102", "title": "Correspondences pair points with their nearest neighbours", "statement": "The correspondences on which the covariance of a registration is based are pairs of a source point and of the target point nearest to it after the alignment, for exactly those points that have a neighbour within the maximum correspondence distance, once each and in cloud order; the indices are valid indices of the two clouds. The reciprocal variant does the same from the target and refuses a search that is not restricted to the indices.", "quantifier": "all clouds, transformations, distances, index lists and nearest-neighbour searches", "why_tests_cant": "all cloud sizes and geometries", "anchors": ["pointcloud_tools/include/pointcloud_tools/impl/registration_utilities.hpp: compute_registration_correspondences"]}
{"id": "C103", "title": "Configured image operations are applied as written", "statement": "The splitter accepts every configuration made of the documented operations (rotations by 0, 90, 180 or 270 degrees in either direction and flips), and applies them to each image in the order in which they are written.", "quantifier": "all configurations of documented operations", "why_tests_cant": "all subsets and orders of operations with their angles; a wrong order shows only for operations that do not commute", "anchors": ["camera_tools/src/split_image.cpp: main", "camera_tools/README.md"]}
{"id": "C104", "title": "The splitter publishes each region with its camera info", "statement": "For each image that contains all configured regions, the splitter publishes for each configuration exactly one image and one info: the part of the image, moved by the operations, in the configured frame with the time of the image, and an info of the same size that projects like the configured camera moved by the operations. A region outside the image publishes nothing and does not change what was published before it.", "quantifier": "all images, configurations and operation lists", "why_tests_cant": "all sizes, regions and operation lists; off by one pixel errors show for some only", "anchors": ["camera_tools/src/split_image.cpp"]}
{"id": "C105", "title": "Infos follow images", "statement": "The info publisher publishes for every image one info with its header and size, and the parameters that were configured; the frame changer changes the frame of image and info and nothing else.", "quantifier": "all sequences of images and all parameters", "why_tests_cant": "unbounded sequences; a stale header or size shows only when images change", "anchors": ["camera_tools/src/publish_info.cpp", "camera_tools/src/change_frame_id.cpp"]}
{"id": "C106", "title": "IMU dead reckoning publishes a prediction per message", "statement": "For every sequence of IMU messages, the dead reckoning node publishes, for each message after the first, exactly one odometry and one path, in order. The odometry has the time of the message and holds the prediction from the initial state with all measurements so far (each lasting since the message before it), its covariance and the measured angular velocity. The path holds all poses published so far, in the frame of the odometry. The initial orientation is that of the first message, for the body.", "quantifier": "every sequence of IMU messages with valid covariances and increasing stamps, every predictor, every initial state and body frame", "why_tests_cant": "State accumulates over an unbounded message history; covariance order and the duration of each step must be right for every history.", "anchors": ["navigation_tools/src/integrate_imu.cpp:IntegrateImu::integrate", "navigation_tools/src/integrate_imu.cpp:IntegrateImu::IntegrateImu"]}
{"id": "C107", "title": "Rotating IMU messages turns the orientation and its covariance", "statement": "For every rotation that is configured and every IMU message, the message published holds the orientation turned by the rotation, with a covariance turned likewise (so that a valid covariance stays valid), and everything else unchanged except the frame, which is overwritten only when configured. A configured rotation that is too short is refused.", "quantifier": "every rotation, every IMU message with a unit orientation, every parameter list", "why_tests_cant": "Holds for every rotation and covariance; the identity rotation used in tests hides errors.", "anchors": ["imu_tools/src/imu_transform.cpp:ImuTransform::transform", "imu_tools/src/imu_transform.cpp:ImuTransform::ImuTransform"]}
{"id": "C108", "title": "Transforms broadcast for odometry and for IMU analysis", "statement": "For every odometry the transform broadcast is its pose between its frames at its time. For every IMU message the orientation is broadcast from the fixed frame to the frame of the IMU; when a transform is to be applied, a second transform is broadcast, between two different frames, whose rotation is the orientation followed by the configured rotation and whose translation is the configured one.", "quantifier": "every odometry, every IMU message, every configuration including the default one", "why_tests_cant": "The order of two rotations shows only for rotations that do not commute; defaults must work for every message.", "anchors": ["navigation_tools/src/odometry_to_tf.cpp:OdometryToTf::odometry_callback", "imu_tools/src/imu_analysis.cpp:ImuAnalysis::analyse", "imu_tools/src/imu_analysis.cpp:ImuAnalysis::ImuAnalysis"]}
{"id": "C109", "title": "Conversions between the optimiser, Eigen and messages are lossless", "statement": "Isometries and optimiser poses convert to each other without loss both ways; optimiser poses and biases written to messages are read back as the same values; arrays of IMU measurements are appended to messages in order, one for each, and reading them appends exactly the measurements.", "quantifier": "every isometry, pose with a proper rotation, bias, and array of any length", "why_tests_cant": "Every rotation must survive the way through a quaternion, and arrays have any length.", "anchors": ["eigen_gtsam/src/geometry.cpp:to_gtsam", "eigen_gtsam/src/geometry.cpp:to_eigen", "serpent/src/utils/ros_conversion.cpp:from_ros", "serpent/src/utils/ros_conversion.cpp:to_ros"]}
{"id": "C110", "title": "Distances between clouds are those to the nearest target point", "statement": "The distance tool publishes, for every source cloud that arrives after a target cloud, one point per source point in the same order and at the same position, carrying the Euclidean distance to the nearest point of the target (after the configured transform), under the source's header; a source point with an empty target, or a missing configuration, is refused.", "quantifier": "every source and target cloud, every transform", "why_tests_cant": "the clouds are unbounded, and a nearest-neighbour mistake shows only for particular geometries", "anchors": ["pointcloud_tools/include/pointcloud_tools/impl/compute_distances.hpp compute_distances", "pointcloud_tools/include/pointcloud_tools/compute_distances.hpp", "pointcloud_tools/src/compute_distances_main.cpp"]}
{"id": "C111", "title": "Published metrics describe the latest messages", "statement": "At every publication the metrics node reports, under fixed names, the variances of the last registration, the largest entry of the last pose covariance and its position, and the norm and angle of the motion between the last two poses of the path and between the last two poses received; a metric whose messages have not arrived is -1.", "quantifier": "every history of messages and every interleaving of the callbacks with the publishing loop", "why_tests_cant": "histories are unbounded and callbacks run concurrently with the publication", "anchors": ["serpent/scripts/metrics_node.py MetricsNode"]}
{"id": "C112", "title": "Files and topics are converted faithfully", "statement": "Loading a file publishes exactly its points once on the requested topic with the requested frame and the current time, whichever message type is asked for, and keeps the message for later subscribers if so requested; saving writes exactly the message that arrived; failures are reported to the caller without sending or writing anything; a message saved and loaded again has the same points; a call without timeout waits and blocks the node.", "quantifier": "every sequence of load and save requests, every file content and message, every file format that round-trips", "why_tests_cant": "the outcome of a request depends on the whole history of earlier requests", "anchors": ["pointcloud_tools/src/pointcloud_file_converter.cpp PointcloudFileConverter::load, PointcloudFileConverter::save", "pointcloud_tools/src/pointcloud_file_converter_open3d.cpp", "pointcloud_tools/srv/file_to_message.srv", "pointcloud_tools/srv/message_to_file.srv"]}
{"id": "C113", "title": "Point types hold poses, covariances and directions without loss", "statement": "A pose stored in a pose point is read back exactly (position and rotation, from a transform, a quaternion or an axis and angle); its quaternion is a unit quaternion of the same rotation; a symmetric covariance stored in a point is read back; extracted directions, counted normals and converted times are those of each point.", "quantifier": "every pose, covariance and cloud", "why_tests_cant": "the values are continuous and the clouds unbounded", "anchors": ["pointcloud_tools/include/pointcloud_tools/point_types.hpp PointAngleAxis, ADD_COVARIANCE, ADD_UNIT_VECTOR", "pointcloud_tools/src/point_types.cpp", "pointcloud_tools/include/pointcloud_tools/impl/pclpointcloud_utilities.hpp convert_ns_to_s, check_normals, extract_unit_vectors"]}
{"id": "C114", "title": "The analyser reports every cloud", "statement": "For every cloud the analyser publishes one statistics array with one correct summary per field, in field order, under the cloud's header, and reports how many normals are not normalised exactly when the cloud has normals.", "quantifier": "every cloud message", "why_tests_cant": "clouds have unbounded size and arbitrary fields", "anchors": ["pointcloud_tools/src/pointcloud_analyser.cpp PointcloudAnalyser::analyse"]}
{"id": "C115", "title": "Deskewing is not disturbed by the optimiser", "statement": "From the moment the biases a pointcloud waits for have arrived until its deskewed pointcloud is published, no newer optimised odometry can arrive, so the biases, state and parameters used for deskewing (which are read without a lock) are those of one optimisation.", "quantifier": "all schedules, all factor configurations and numbers of threads", "why_tests_cant": "the code relies on an ordering argument across two nodes instead of a lock; a violation is a data race that shows in rare schedules only", "anchors": ["serpent/src/front_end/frontend.cpp: pointcloud_callback (452-490), optimised_odometry_callback"]}
{"id": "C116", "title": "Mutexes do not deadlock and are not held while waiting", "statement": "In every interleaving of the callbacks some unfinished callback can go on, a callback that sleeps holds no mutex, every callback that ends has released all mutexes, and no mutex is unlocked without being held or locked twice.", "quantifier": "all interleavings of all callbacks, any number of rounds in every wait", "why_tests_cant": "lock-order deadlocks depend on interleavings", "anchors": ["serpent/src/front_end/frontend.cpp", "serpent/src/back_end/optimisation.cpp", "serpent/include/serpent/front_end/lidar/registration-inl.hpp", "serpent/include/serpent/mapping/mapping-inl.hpp", "serpent/src/utils/utilities.cpp: protected_sleep"]}
{"id": "C117", "title": "No data races between callbacks", "statement": "No two callbacks use the same member at the same time with one of them writing it.", "quantifier": "all interleavings of all callbacks", "why_tests_cant": "data races depend on interleavings and are invisible to functional tests", "anchors": ["serpent/include/serpent/front_end/frontend.hpp: thread management", "serpent/src/front_end/frontend.cpp", "serpent/src/back_end/optimisation.cpp"]}
{"id": "C118", "title": "Shutdown ends the process", "statement": "When the node is shut down, every running callback ends, so that the threads can be joined and the process exits.", "quantifier": "all interleavings and all moments of shutdown", "why_tests_cant": "needs a shutdown at an unlucky moment", "anchors": ["serpent/src/utils/utilities.cpp: protected_sleep", "serpent/src/back_end/optimisation.cpp: barometer_callback, imu_s2s_callback, stereo_features_callback", "serpent/src/nodes/node.cpp"]}
{"id": "C119", "title": "Moving a trajectory to another start", "statement": "Recomputing a trajectory from another first pose moves it as a rigid body that takes the old first pose to the new one; the relative poses and the length of the path stay the same; the length is the sum of the distances between successive positions and at least the distance of the ends.", "quantifier": "all trajectories of valid poses, all first poses", "why_tests_cant": "holds for every trajectory and needs the group laws of rigid motions", "anchors": ["plotting/recompute_trajectory.m", "plotting/compute_relative_poses.m", "plotting/compute_trajectory_length.m"]}
{"id": "C120", "title": "Estimates are compared with the reference at their own time", "statement": "Errors of poses and vectors are computed against the reference interpolated, between its two neighbouring samples, at the time of the estimate; estimates outside of the time of the reference, and no others, are left out.", "quantifier": "all references with increasing times, all estimates and all query times in any order", "why_tests_cant": "a search index kept between queries is wrong only for particular sequences of times", "anchors": ["plotting/interpolate_trajectory.m", "plotting/interp_transform.m", "plotting/interp_vector.m", "plotting/compute_pose_errors.m", "plotting/compute_vector_errors.m"]}
{"id": "C121", "title": "Reported errors of an odometry", "statement": "Absolute errors vanish exactly for poses equal to the reference, relative errors exactly for trajectories that are the reference moved as a rigid body; relative errors do not depend on the alignment; the norms are distances and rotation angles, and the summary is the root of the mean of their squares.", "quantifier": "all references and odometries", "why_tests_cant": "statements about all trajectories, with equivalences in both directions", "anchors": ["plotting/compute_pose_errors.m", "plotting/compute_pose_data.m", "plotting/split_poses.m", "plotting/compute_vector_errors.m"]}
{"id": "C122", "title": "Aligning an odometry with the reference", "statement": "Aligning moves the odometry as a rigid body: to the first pose, so that its first error is none; over the whole trajectory, by a correction that follows the gradient of the stated loss, with bounded steps, and that leaves a perfect trajectory where it is.", "quantifier": "all references, odometries and parameters of the optimisation", "why_tests_cant": "the gradient is wrong only after the first iteration, and the division by zero happens only for perfect data", "anchors": ["plotting/align_to_first_pose.m", "plotting/align_trajectory.m", "plotting/compute_pose_data.m"]}
{"id": "C123", "title": "Statistics of how long features are tracked", "statement": "The number reported for a match is the number of successive frames up to this one that have its id; mean, smallest and largest summarise them per frame, and the bins count the matches of each duration.", "quantifier": "all sequences of frames of match ids", "why_tests_cant": "ids may leave and return at any frame; holds for all sequences", "anchors": ["plotting/compute_frame_track_statistics.m", "plotting/extract_statistics.m"]}
{"id": "C124", "title": "Share of the tracked features that is kept", "statement": "The share reported for a frame is the number of matches tracked into it divided by all matches of the frame before; for the statistics of the stereo tracker it lies between 0 and 1 and counts the ids that are still there; frames without a share do not enter the mean.", "quantifier": "all sequences of statistics, all image sequences and all behaviours of the vision functions", "why_tests_cant": "combines the tracker's bookkeeping over successive frames with the evaluation", "anchors": ["plotting/compute_track_retention.m", "plotting/extract_statistics.m", "serpent/src/front_end/stereo/stereo_feature_tracker.cpp"]}
{"id": "C125", "title": "Options that are set take effect", "statement": "A node that starts with an option of the configuration files set to a value of the documented type behaves as the file says: the component the option belongs to is built with that value, in both the front end and the back end where both use it. No option that is not documented has an effect.", "quantifier": "all parameter servers with which the node starts, all values of every option", "why_tests_cant": "there are more than two hundred options whose combinations decide which code runs; a misspelt name is silently replaced by a default", "anchors": ["serpent/src/nodes/node.cpp", "serpent/src/nodes/frontend_node.cpp", "serpent/src/nodes/backend_node.cpp", "serpent/src/front_end/frontend.cpp", "serpent/src/back_end/optimisation.cpp", "serpent/src/front_end/lidar/pointcloud_filter.cpp", "serpent/src/front_end/stereo/stereo_factor_finder.cpp", "serpent/include/serpent/front_end/lidar/registration_methods-inl.hpp", "serpent/include/serpent/mapping/mapping-inl.hpp", "serpent/config"]}
{"id": "C126", "title": "Nodes start exactly with valid options", "statement": "Every node starts if and only if its options are valid (words from the documented lists, numbers in range, frames known); otherwise it ends with an exception before processing data. Options of modules that are switched off do not matter.", "quantifier": "all parameter servers, all sets of known frames, all versions of OpenCV", "why_tests_cant": "the combinations of options cannot be enumerated, and an invalid option that is accepted shows only later", "anchors": ["serpent/src/nodes/node.cpp: main", "serpent/src/nodes/frontend_node.cpp: main", "serpent/src/nodes/backend_node.cpp: main", "serpent/src/nodes/stereo_pipeline_node.cpp: main", "serpent/config/tuning_default.yaml"]}
{"id": "C127", "title": "An option that is left out has the value of the configuration files", "statement": "Deleting any lines of the configuration files that have not been changed leaves every node as it was.", "quantifier": "all parameter servers, all sets of deleted options", "why_tests_cant": "the defaults are repeated in the sources, once for every place that reads an option", "anchors": ["serpent/config/tuning_default.yaml", "serpent/config/filter_default.yaml", "serpent/config/debug_default.yaml", "serpent/src/front_end/frontend.cpp", "serpent/src/back_end/optimisation.cpp", "serpent/src/front_end/stereo/stereo_factor_finder.cpp"]}
{"id": "C128", "title": "Components agree on shared options; one process and two processes are the same", "statement": "In every node that starts, components that use the same option have the same value: gravity and IMU noise in front end and back end, the map frame, the enabled factors, the point type, the voxel size. The front-end and the back-end process together start with exactly the options that the single process starts with, and consist of the same components.", "quantifier": "all parameter servers with which the node starts", "why_tests_cant": "every component reads the option again with a default of its own; they could differ for a single option", "anchors": ["serpent/src/nodes/node.cpp", "serpent/src/nodes/frontend_node.cpp", "serpent/src/nodes/backend_node.cpp", "serpent/src/front_end/frontend.cpp: Frontend::Frontend", "serpent/src/back_end/optimisation.cpp: Optimisation::Optimisation", "serpent/include/serpent/front_end/lidar/registration-inl.hpp"]}
{"id": "C129", "title": "Share of registration errors within the reported covariance", "statement": "The share printed by the covariance scatter plot is the fraction of the motions between registered frames whose translation error lies within two standard deviations of the covariance reported for them.", "quantifier": "all reference and estimated trajectories, all covariances, all functions that meet the contract of eig", "why_tests_cant": "the axes of the covariances and the number of motions are arbitrary; three motions with equal variances look right", "anchors": ["plotting/plot_normalised_covariance_scatter.m", "plotting/compute_relative_poses.m", "plotting/interpolate_trajectory.m"]}
{"id": "C130", "title": "Velocity report and time bounds", "statement": "For every odometry the velocity report has the samples within the reference's time, their linear and angular errors with respect to the reference at the same time, the lengths of these and their root mean square. Time bounds select the samples of the reference from the given start for the given duration and change no error.", "quantifier": "all references and odometries, all bounds", "why_tests_cant": "search indices and interpolation between arbitrary times, over sequences of any length", "anchors": ["plotting/compute_twist_data.m", "plotting/compute_pose_data.m", "plotting/compute_vector_errors.m", "plotting/extract_linear_velocities.m", "plotting/extract_angular_velocities.m"]}
{"id": "C131", "title": "All components are connected", "statement": "With all options with which the system starts, as one process or as two, every subscription is to one of the sensor topics given to the launch file, or to a topic that has exactly one publisher, of a compatible message type. Which topics exist, and how many components read each of them, is decided by the options alone; no component reads an output or debugging topic. Sensors are subscribed to exactly if their factors are used. The metrics, analysis, recording and display tools find the topics they name.", "quantifier": "all parameter servers, all sensor topics outside the system's namespace, one process and two", "why_tests_cant": "topics are strings in many files, and dozens of options decide which publishers and subscribers exist; a typo in one combination shows only as silence", "anchors": ["serpent/src/front_end/frontend.cpp", "serpent/src/back_end/optimisation.cpp", "serpent/src/front_end/lidar/*.cpp", "serpent/src/front_end/stereo/*.cpp", "serpent/include/serpent/mapping/mapping.hpp", "serpent/launch/*.launch", "pointcloud_tools/launch/*.launch", "serpent/scripts/metrics_node.py"]}
{"id": "C132", "title": "The front end's failures", "statement": "From every reachable state, with sensors and back end as specified, a callback of the front end has undefined behaviour exactly if the IMU measurements since the last state are requested and there are none, or a barometer reading is requested before any message; it ends with an exception exactly if the pointcloud is empty, the covariances at the time of the answered state are not valid, no IMU measurement of that time has arrived, the first state or sweep precedes all measurements, or a measurement coincides with the start or end of a sweep while the integrator refuses empty intervals. In every other situation it completes.", "quantifier": "all reachable states of the front end, all admissible messages, all configurations", "why_tests_cant": "the failing situations depend on the relative order of stamps and arrivals of five message streams", "anchors": ["serpent/src/front_end/frontend.cpp", "serpent/src/utils/utilities.cpp"]}
{"id": "C133", "title": "Deskewing uses the lidar's motion", "statement": "The transform with which a point cloud is deskewed is the motion of the lidar during the sweep, predicted from the last optimised state with exactly the IMU measurements that hold before and during the sweep; after deskewing each point lies, seen from the lidar at the time of the new state, where it was when it was measured; the options for translation and rotation switch off exactly their part.", "quantifier": "every mounting of the lidar, every pair of states, every buffer of measurements, every cloud", "why_tests_cant": "a test uses one mounting; with the usual mounting without rotation and a straight motion the error does not show", "anchors": ["serpent/src/front_end/frontend.cpp:pointcloud_callback", "eigen_ext/include/eigen_ext/geometry-inl.hpp:change_relative_transform_frame"]}
{"id": "C134", "title": "Guess and result of the registration", "statement": "The transform published for the IMU is, as the registration reads it, the motion of the lidar between the two states; the pose that the back end sets from a result of the registration lets the lidar move by exactly that result; a registration that returns its guess reproduces the pose predicted from the IMU.", "quantifier": "every mounting, every pair of poses, every result", "why_tests_cant": "tests check one mounting; the two conversions are in two nodes", "anchors": ["serpent/src/back_end/optimisation.cpp:add_imu_factor", "serpent/src/back_end/optimisation.cpp:add_registration_factor", "serpent/include/serpent/front_end/lidar/registration-inl.hpp:publish_refined_transform"]}
{"id": "C135", "title": "IMU-rate odometry", "statement": "The odometry published for each IMU measurement has the stamp of the measurement, map and body as frames, and pose and twist of the predicted state: linear velocity and bias-corrected angular velocity in the frame of the body.", "quantifier": "every state, bias, mounting and measurement", "why_tests_cant": "zero biases and unturned bodies hide the errors", "anchors": ["serpent/src/front_end/frontend.cpp:imu_callback"]}
{"id": "C136", "title": "What is sent for an optimised state", "statement": "For an optimised state the front end stores orientation, position and velocity, broadcasts the pose of base_link in the map at the time of the state and publishes the pose of base_link with its covariance; if base_link cannot be looked up, nothing is sent and the state is stored.", "quantifier": "every message, every body frame and every transform", "why_tests_cant": "tests use base_link as body", "anchors": ["serpent/src/front_end/frontend.cpp:optimised_odometry_callback"]}
{"id": "C137", "title": "Initial state", "statement": "The first state has the configured position and velocity, the orientation the IMU reports, turned from its reference frame into the map and from the IMU to the body, and priors with the configured variances in the right blocks; the back end starts with exactly these.", "quantifier": "every orientation, mounting, reference frame and choice of parameters", "why_tests_cant": "tests use identity orientation and mounting", "anchors": ["serpent/src/front_end/frontend.cpp:body_frame_orientation", "serpent/src/front_end/frontend.cpp:pointcloud_callback", "serpent/src/back_end/optimisation.cpp:initial_odometry_callback"]}
{"id": "C138", "title": "Stamps of stereo data", "statement": "Images and camera infos of a pair are stored and republished with one stamp, that of the left image cut to microseconds or the requested one; nothing else in them changes.", "quantifier": "every set of stamps and contents", "why_tests_cant": "rounding and unequal stamps of left and right occur only in recordings", "anchors": ["serpent/src/front_end/frontend.cpp:stereo_callback", "serpent/src/front_end/frontend.cpp:publish_stereo_data", "serpent/src/front_end/frontend.cpp:change_timestamp"]}
{"id": "C139", "title": "Optimised odometry", "statement": "The optimised odometry carries time, frames, pose, velocity and (without stereo factors) the covariance of the optimised state in the order of ROS, and the state that the front end stores from it is the optimised state; the velocity set from two poses moves the first position to the second in the time between them.", "quantifier": "every pose, velocity, covariance and time", "why_tests_cant": "round trips through messages hold for all values or for few", "anchors": ["serpent/src/back_end/optimisation.cpp:publish", "serpent/src/back_end/optimisation.cpp:update_velocity_from_transforms", "serpent/src/front_end/frontend.cpp:optimised_odometry_callback"]}
{"id": "C140", "title": "Preintegration parameters", "statement": "The parameters of the preintegration are accepted exactly if gravity is not zero and the three covariances are positive definite; with overwritten covariances the updates never fail unless a noise or gravity is set to zero; without, interpolated measurements between acceptable ones are accepted. Gravity has the configured size and points down the third axis of the map, before and after updates.", "quantifier": "every covariance matrix and every parameter value", "why_tests_cant": "positive definiteness cannot be tested for all matrices", "anchors": ["serpent/src/utils/utilities.cpp:check_valid", "serpent/src/utils/utilities.cpp:update_preintegration_params", "serpent/src/front_end/frontend.cpp:imu_callback"]}
{"id": "C141", "title": "Derivation script", "statement": "The residuals, rotation matrices and Jacobians that degeneracy_analysis.m derives by hand are those of the ICP models: every formula is the matrix of second derivatives of the squared residual, and twice the matrix that the covariance estimation uses. So is every entry of the files that the script writes for the linearised models.", "quantifier": "every pose, pair of points and normal", "why_tests_cant": "the script compares symbolic expressions once, the formulas have to hold for all values", "anchors": ["degeneracy_analysis/degeneracy_analysis.m", "degeneracy_analysis/skew.m", "degeneracy_analysis/point_to_point_linear.txt", "degeneracy_analysis/point_to_plane_linear.txt"]}
{"id": "C142", "title": "Exact alignments give the exact trajectory and map", "statement": "When each scan alignment takes what the lidar sees to what it saw before, the states' poses, the measurements of the graph's factors and the published path are those of the true motion of the body seen from the first state, for every mounting of the lidar; with such a path and a static world, every point of the global map is at the place of the world point, and every point of a local map is a world point as seen from the lidar.", "quantifier": "every trajectory of any length, every mounting, every set of world points, every history of the mapping node", "why_tests_cant": "a test follows one trajectory with one mounting; errors of frames cancel for simple mountings", "anchors": ["serpent/include/serpent/front_end/lidar/registration-inl.hpp:publish_refined_transform", "serpent/src/back_end/optimisation.cpp:add_registration_factor", "serpent/src/back_end/optimisation.cpp:convert_to_path", "serpent/include/serpent/mapping/mapping-inl.hpp:map_update_callback"]}
{"id": "C143", "title": "Stereo cameras without a valid baseline are refused", "statement": "The back end takes the stereo calibration from the first stereo message whose right projection matrix gives a positive baseline: a message with a baseline that is zero or negative ends with an exception and leaves no calibration, factor, landmark or observation, and a stored calibration is never replaced. The feature finder with the distance filter starts only with equal focal lengths and a positive baseline. (Fails for the zero matrix of an uncalibrated camera, whose baseline is not a number: the back end stores it, and the feature finder accepts it and then never publishes a feature.)", "quantifier": "every projection matrix, every state of the back end, every message; every history of stereo frames", "why_tests_cant": "a test checks one wrong baseline, usually a negative one; that every later message leaves the calibration alone and that division by zero passes the check is not seen by it", "anchors": ["serpent/src/back_end/optimisation.cpp:add_stereo_factors", "serpent/src/front_end/stereo/stereo_factor_finder.cpp:stereo_callback", "serpent/src/front_end/stereo/match_filters.cpp:StereoDistanceFilter"]}
{"id": "C144", "title": "Messages of several topics are handled together exactly when their stamps agree", "statement": "The callbacks that take messages of several topics (biases and odometry, pointcloud and IMU transform, pointcloud and path changes, stereo images and camera parameters) are called only with messages of equal stamp, one of each topic. If every topic is in order, the calls are in order and no stamp is handled twice, and every set of messages with equal stamps is handled, whatever the interleaving of the topics. (The last part fails when ten later stamps already wait for their partners: then the set is lost.)", "quantifier": "every number of topics, every history of messages, every interleaving and every queue size", "why_tests_cant": "the interleaving of topics is up to the network and the threads; a test sees a few", "anchors": ["serpent/src/front_end/frontend.cpp: optimised_odometry_sync, stereo_sync", "serpent/include/serpent/front_end/lidar/registration-inl.hpp: s2s_sync", "serpent/include/serpent/mapping/mapping-inl.hpp: correct_map_sync", "serpent/src/front_end/stereo/stereo_factor_finder.cpp: stereo_sync"]}
{"id": "C145", "title": "Queues between the components do not overflow", "statement": "With registration factors, whatever the schedule of the callbacks and the number of threads, no queue between the front end, the registration, the mapping and the back end ever holds more messages than it has room for, so every message is handled, in order. (Fails for the mapping without scan-to-map registration, for pressures and for stereo features: nothing waits for these callbacks, so their messages can be lost. With the front end and the back end as two processes it also fails for IMU arrays and clouds, because a publisher keeps one unsent message; if the first cloud is lost the system stops.)", "quantifier": "every reachable state of the system of waiting callbacks, every configuration with registration factors, every sensor data", "why_tests_cant": "overflow needs a rare schedule; tests see one schedule", "anchors": ["serpent/src/back_end/optimisation.cpp: Optimisation::Optimisation", "serpent/src/front_end/frontend.cpp: Frontend::Frontend, pointcloud_callback", "serpent/include/serpent/front_end/lidar/registration-inl.hpp", "serpent/include/serpent/mapping/mapping-inl.hpp"]}
{"id": "C146", "title": "Comparison of poses, twists, odometry and IMU measurements", "statement": "Every value equals itself; the order of the two does not matter; a quaternion and its negative are the same orientation; stamps and frames are compared exactly and everything else to a millionth of a millionth of the smaller norm, so that a zero component equals only zero; and values that are equal to the same value are equal. (The last part fails: comparison is not transitive and depends on the distance from the origin.)", "quantifier": "all poses, twists, odometry, IMU measurements and stamped values with real components", "why_tests_cant": "a law for all pairs and triples of real values", "anchors": ["eigen_ros/src/pose.cpp: operator==", "eigen_ros/src/twist.cpp: operator==", "eigen_ros/src/odometry.cpp: operator==, pose_stamped, twist_stamped", "eigen_ros/src/imu.cpp: operator==", "eigen_ros/include/eigen_ros/stamped.hpp: operator=="]}
{"id": "C147", "title": "Roll, pitch and yaw of an orientation", "statement": "The three angles of an orientation are angles of successive turns about x, the new y and the new z axis that together make exactly its rotation; they lie in fixed ranges, are unique there unless the sensor points straight up or down, and do not depend on the sign of the quaternion; an orientation close to the identity has angles close to zero, and one that is not known is not shown as one that is. (The last two fail: a small negative roll is shown as nearly half a turn, and the quaternion zero as the identity.)", "quantifier": "all unit quaternions; all triples of angles", "why_tests_cant": "a law over all rotations with special cases at the poles and at the jump of the arc tangent", "anchors": ["eigen_ros/include/eigen_ros/imu.hpp: rpy", "eigen_ros/src/imu.cpp: Imu::print", "imu_tools/src/imu_analysis.cpp: imu_callback"]}
{"id": "C148", "title": "Configurations of the data sets", "statement": "Every mission of the three data sets in the repository starts, as one node, as two and as stereo pipeline, for every number of threads and version of OpenCV; every option of its files is read with the type it has and none is missing; no IMU measurement can stop the integration; the frames of its robot are accepted and fixed; the right camera of every stereo pair is beside the left one at the distance that its camera info states, and the frame configured for the left camera is the left camera; the camera images are split without gaps and overlaps; and its threads suffice for every schedule. (The configured left camera fails for ue4_missions: it is the middle of the pair.)", "quantifier": "all missions of all data sets, versions of OpenCV, numbers of threads, transform listeners, times, images, IMU measurements and schedules", "why_tests_cant": "a data set is configured in ten files of several packages whose agreement no test checks; schedules, listeners and measurements are unbounded", "anchors": ["snowboard/config/serpent/*.yaml", "ue4_missions/config/serpent/*.yaml", "simulator_prcp_missions/config/serpent/*.yaml", "snowboard/config/camera_tools/*.yaml", "ue4_missions/config/*_camera_info.yaml", "snowboard/launch/serpent.launch", "serpent/launch/load_parameters.launch", "serpent/src/nodes/node.cpp: main"]}
{"id": "C149", "title": "The launch files of the data sets connect all nodes to the recorded data", "statement": "With the launch files of snowboard, ue4_missions and simulator_prcp_missions, for all options with which the system starts, as one process, as two and as the stereo pipeline, every subscription of the nodes for the cameras and of the nodes of the system is to a recorded topic of the right type that no node publishes for, or has exactly one publisher, of its type. The images of the left camera are those of the camera whose frame the back end is configured to take for the left camera.", "quantifier": "all options with which the system starts, all values of the arguments of the launch files, all missions, one and two processes and the stereo pipeline", "why_tests_cant": "Each topic is named in several launch files, in the files of the camera kits and in the constructors; a mistake in one shows only when the whole system is launched with the recorded data, for one choice of the options.", "anchors": ["snowboard/launch/serpent.launch", "snowboard/launch/undistort_stereo.launch", "snowboard/launch/split_images.launch", "snowboard/config/camera_tools/split_kit0.yaml", "snowboard/config/camera_tools/split_kit1.yaml", "ue4_missions/launch/serpent.launch", "ue4_missions/launch/publish_camera_info.launch", "simulator_prcp_missions/launch/serpent.launch", "camera_tools/src/split_image.cpp: ImageSplitter", "camera_tools/src/publish_info.cpp: PublishInfo", "serpent/launch/serpent.launch"]}
{"id": "C150", "title": "Stereo features are searched in the configured region", "statement": "With a stereo mask, new features are found in exactly the configured region of every image, whatever the sizes of the images: the detector is given a mask that allows exactly the pixels of the region, and every new feature is in the region in both images (up to the tolerance of the detector). Without a mask, or with one of all zeros, the whole image is searched. A region that does not fit into the images ends the node with the first image, and one without height or width finds no features. The regions of the missions in the repository fit into images of at least 1577 by 676 pixels (snowboard) and 720 by 720 (ue4_missions).", "quantifier": "all sequences of stereo frames of all sizes, also after calls that threw, all regions, all detectors that respect their mask, all missions of the data sets", "why_tests_cant": "The mask is kept between calls and made again only when the size of the images changes, so what it contains depends on the whole history of sizes and exceptions; tests with images of one size never make it twice.", "anchors": ["serpent/src/front_end/stereo/stereo_feature_tracker.cpp: StereoFeatureTracker::process, extract_keypoints", "serpent/src/front_end/stereo/stereo_factor_finder.cpp: StereoFactorFinder", "serpent/include/serpent/front_end/stereo/stereo_feature_tracker.hpp: roi, roi_mask", "snowboard/config/serpent/filter.yaml", "ue4_missions/config/serpent/filter.yaml"]}
{"id": "C151", "title": "Clouds for debugging show what the registration did", "statement": "With debug/registration/publish_clouds, every scan after the first publishes on four topics the scan, the scan before, the scan moved by its initial guess and what the registration filled in, all with the stamp of the scan before and the frame of the lidar; with scan-to-map one more cloud per published transform carries the stamp of the map it was registered to; with publish_clouds_alt the scan moved by the result is published beside. The options change nothing else: the registration publishes the same transforms and fails in the same cases. Without publish_clouds nothing is published.", "quantifier": "all sequences and interleavings of scans, maps and callbacks, all clouds and motions, all point types and options", "why_tests_cant": "The pairing of clouds with scans and maps depends on the interleaving of two callbacks over the whole history, and harmlessness compares all runs with and without the options.", "anchors": ["serpent/include/serpent/front_end/lidar/registration-inl.hpp: s2s_callback, s2m_callback", "serpent/include/serpent/front_end/lidar/transform_pointcloud-inl.hpp: transform_pointcloud"]}
{"id": "C152", "title": "Drawing the intermediate images of the stereo tracker is harmless and shows what is tracked", "statement": "A stereo tracker that is asked for its intermediate images processes every sequence of frames as one that is not: the same features, the same statistics, the same exceptions. The images show the keypoints found by the detector in the left and right image, the flow of the features of the previous frame in each image, the features that are tracked and the features that are new; together the last two are the output of the frame.", "quantifier": "every sequence of stereo frames, every configuration, every detector, optical flow and matcher (which may throw), with OpenCV drawing whatever refers to keypoints and images that exist", "why_tests_cant": "whether a drawing refers to missing images or keypoints depends on the whole history of frames and exceptions, not on one frame", "anchors": ["serpent/src/front_end/stereo/stereo_feature_tracker.cpp: process, track_previous_keypoints", "serpent/include/serpent/front_end/stereo/stereo_feature_tracker.hpp: IntermediateImages", "serpent/src/front_end/stereo/stereo_factor_finder.cpp: stereo_callback"]}
{"id": "C153", "title": "The cloud of stereo landmarks shows the graph", "statement": "If the back end publishes the stereo landmarks for debugging, the cloud contains exactly one point for each landmark that was seen in two successive frames, at its current estimate, in the order of the ids, in the map frame and with the stamp of the odometry to the microsecond. Publishing it never throws if the other messages are published, and it changes nothing else.", "quantifier": "all histories of calls on the graph manager, including optimisations, marginalisation and calls that throw", "why_tests_cant": "which landmarks exist depends on the whole history of frames; a missing estimate would throw only in some of them", "anchors": ["serpent/src/back_end/optimisation.cpp: publish, to_pcl", "serpent/src/back_end/graph_manager.cpp: stereo_landmarks"]}
{"id": "C154", "title": "An exception of the optimiser reaches the caller unchanged", "statement": "If an update of the back end's optimiser throws, the same exception, with its kind and its message or variable, leaves the call after the diagnostics were printed; printing the diagnostics never replaces it by another one.", "quantifier": "all histories of calls on the graph manager including optimisations, all exceptions, both values of the options that print diagnostics", "why_tests_cant": "which states and landmarks have values when an exception happens depends on the whole history, and the exceptions need degenerate scenes", "anchors": ["serpent/src/back_end/optimisation.cpp: Optimisation::optimise", "serpent/src/back_end/optimisation.cpp: Optimisation::precrash_operations", "serpent/src/back_end/optimisation.cpp: Optimisation::print_information_at_key"]}
{"id": "C155", "title": "The back end never optimises a factor whose states have no values", "statement": "Whenever the back end calls its optimiser, every state and landmark that occurs in any factor of its graph has a value, including factors of later keys; the same holds whenever all callbacks are finished or wait. A stereo factor connects a pose and a landmark and exists only after the calibration and the mounting of the camera are known.", "quantifier": "all configurations of enabled sensors, all messages, all interleavings of the callbacks of the back-end node including those that end in an exception", "why_tests_cant": "the factors of one key are made by four callbacks that wait for each other, and a value is set in another callback than the factor that needs it; only some interleavings separate them", "anchors": ["serpent/src/back_end/optimisation.cpp: Optimisation::imu_s2s_callback", "serpent/src/back_end/optimisation.cpp: Optimisation::registration_callback", "serpent/src/back_end/optimisation.cpp: Optimisation::stereo_features_callback", "serpent/src/back_end/optimisation.cpp: Optimisation::barometer_callback", "serpent/src/back_end/optimisation.cpp: Optimisation::initial_odometry_callback", "serpent/src/back_end/graph_manager.cpp: GraphManager"]}
{"id": "C156", "title": "The running back end hands its optimiser a consistent stream of factors and variables", "statement": "In every run of the back-end node, each factor handed to the optimiser involves only variables handed over in the same or an earlier call; no variable is handed over or marginalised twice; and the factors handed over together with those that still wait are exactly the factors of the graph, each as often as it was made. The graph manager is always in a state that a sequence of successful calls of its methods leads to, so all properties of such sequences hold in the node.", "quantifier": "all configurations of enabled sensors, all messages, all interleavings of the callbacks of the back-end node that end without an exception, all optimisers", "why_tests_cant": "late barometer and stereo messages add factors to keys that are already optimised; whether variables and factors stay matched depends on the interleaving of five callbacks over the whole run", "anchors": ["serpent/src/back_end/optimisation.cpp: Optimisation::imu_s2s_callback", "serpent/src/back_end/optimisation.cpp: Optimisation::registration_callback", "serpent/src/back_end/optimisation.cpp: Optimisation::stereo_features_callback", "serpent/src/back_end/optimisation.cpp: Optimisation::barometer_callback", "serpent/src/back_end/optimisation.cpp: Optimisation::initial_odometry_callback", "serpent/src/back_end/graph_manager.cpp: ISAM2GraphManager::optimise"]}
{"id": "C157", "title": "The running back end only marginalises variables that its optimiser has", "statement": "In every run of the back-end node, with any window size, a variable is given to the optimiser for marginalisation only after it was handed to the optimiser in an earlier call, and at most once. This includes landmarks, which are selected by their id and not by the frame that tracks them. For direct users of the graph manager the same holds if marginalise is not called explicitly and no stereo frame is ahead of the key that is optimised; without either condition it does not.", "quantifier": "all configurations and window sizes, all messages, all interleavings of the callbacks of the back-end node that end without an exception, all optimisers; all histories of calls of the graph manager", "why_tests_cant": "an unknown variable makes the optimiser throw in the middle of a run; whether a landmark id, a pressure index or a state index under the window is known depends on how far stereo, registration, IMU and barometer have advanced when the optimisation starts", "anchors": ["serpent/src/back_end/graph_manager.cpp: ISAM2GraphManager::optimise", "serpent/src/back_end/graph_manager.cpp: ISAM2GraphManager::marginalise", "serpent/src/back_end/optimisation.cpp: Optimisation::optimise", "serpent/src/back_end/optimisation.cpp: Optimisation::stereo_features_callback"]}
{"id": "C158", "title": "With a window of w keys the optimiser of the running back end holds exactly the poses of the last w keys", "statement": "In every run of the back-end node with marginalisation enabled and window size w: after each callback the poses handed to the optimiser are those of the keys 0 to k, where k is the key optimised last, those given to it for marginalisation are the poses of the keys 0 to k - w, and so the optimiser holds exactly the poses of the last w keys and never more than w. With the IMU enabled the same holds of the velocities and IMU biases once key 1 has been optimised. With marginalisation disabled nothing is ever marginalised.", "quantifier": "all configurations and window sizes, all messages, all interleavings of the callbacks of the back-end node that end without an exception, all optimisers, all key values", "why_tests_cant": "the bound on the size of the problem must hold for runs of any length and for every interleaving of the sensors; a test sees one short run", "anchors": ["serpent/src/back_end/graph_manager.cpp: ISAM2GraphManager::optimise", "serpent/src/back_end/graph_manager.cpp: ISAM2GraphManager::marginalise", "serpent/src/back_end/graph_manager.cpp: ISAM2GraphManager::set_marginalisation", "serpent/src/back_end/optimisation.cpp: Optimisation::Optimisation", "serpent/src/back_end/optimisation.cpp: Optimisation::optimise"]}
