[{"fan": 0, "root": [185800, 1, 3014200, 2000000, 1, 2], "tree": "y(x(d)(d))(x(d)(y(d)(y(d)(y(d)(y(d)(x(d)(y(d)(y(d)(x(d)(a))))))))))", "n": 1, "s": 11}, {"fan": 1, "root": [200000, 1, 3400000, 2000000, 1, 2], "tree": "y(x(d)(d))(x(y(d)(y(d)(y(d)(y(d)(y(x(d)(d))(x(y(d)(x(a)(a)))(y(d)(y(d)(x(a)(a))))))))))(y(d)(y(d)(y(d)(x(x(y(d)(y(d)(a)))(y(d)(a)))(y(d)(a)))))))", "n": 7, "s": 18}, {"fan": 2, "root": [200000, 1, 3400000, 2000000, 1, 2], "tree": "y(x(y(x(x(a)(a))(y(x(a)(a))(a)))(x(x(a)(a))(y(y(a)(a))(y(a)(a)))))(y(x(y(a)(a))(a))(y(x(a)(a))(x(y(a)(x(a)(a)))(x(a)(a))))))(x(y(x(a)(x(a)(a)))(y(x(a)(a))(x(a)(a))))(y(x(y(y(x(a)(a))(x(a)(a)))(y(x(a)(a))(x(a)(a))))(y(x(a)(a))(y(x(a)(a))(x(a)(a)))))(y(y(x(y(x(a)(a))(x(a)(a)))(y(x(a)(a))(x(a)(a))))(x(y(x(a)(a))(y(x(a)(a))(a)))(y(x(a)(a))(x(a)(a)))))(y(x(y(a)(a))(y(x(a)(a))(x(a)(a))))(y(x(y(y(a)(x(a)(a)))(x(a)(a)))(y(x(a)(a))(x(a)(a))))(x(y(x(a)(a))(x(a)(a)))(y(x(a)(a))(x(a)(a)))))))))", "n": 82, "s": 0}, {"fan": 3, "root": [216300, 1, 3816300, 2000000, 1, 2], "tree": "y(x(d)(d))(x(y(d)(y(d)(y(d)(y(d)(x(a)(a))))))(y(d)(y(d)(y(d)(y(d)(x(a)(a)))))))", "n": 4, "s": 10}, {"fan": 4, "root": [216300, 1, 3816300, 2000000, 1, 2], "tree": "y(x(x(y(x(a)(a))(x(a)(a)))(y(a)(y(x(a)(a))(x(a)(a)))))(y(y(x(a)(a))(x(a)(a)))(x(y(x(a)(a))(x(a)(a)))(y(y(a)(a))(y(x(a)(a))(x(a)(a)))))))(x(y(x(y(x(a)(a))(x(a)(a)))(y(y(x(a)(a))(x(a)(a)))(y(x(a)(a))(x(a)(a)))))(y(x(y(x(a)(a))(x(a)(a)))(y(x(a)(a))(y(x(a)(a))(x(a)(a)))))(y(x(y(x(a)(a))(x(a)(a)))(x(a)(a)))(x(y(x(a)(a))(x(a)(a)))(y(x(a)(a))(x(a)(a)))))))(y(y(y(x(x(a)(a))(y(x(a)(a))(x(a)(a))))(x(y(x(a)(a))(y(x(a)(a))(x(a)(a))))(y(x(a)(a))(y(x(a)(a))(x(a)(a))))))(x(x(a)(a))(y(y(y(y(x(a)(a))(x(a)(a)))(y(x(a)(a))(x(a)(a))))(y(x(a)(a))(x(a)(a))))(x(a)(a)))))(y(y(x(x(a)(a))(x(a)(a)))(x(y(x(a)(a))(x(a)(a)))(y(x(a)(a))(x(a)(a)))))(y(x(y(x(a)(a))(y(x(a)(a))(x(a)(a))))(y(x(a)(a))(x(a)(a))))(x(y(y(x(a)(a))(x(a)(a)))(y(y(x(a)(a))(x(a)(a)))(y(x(a)(a))(x(a)(a)))))(y(x(a)(a))(y(x(a)(a))(x(a)(a)))))))))", "n": 133, "s": 0}, {"fan": 5, "root": [283700, 1, 4316300, 2000000, 1, 2], "tree": "y(x(d)(d))(x(y(d)(y(d)(y(d)(y(d)(x(a)(a))))))(y(d)(y(d)(y(d)(y(d)(x(a)(a)))))))", "n": 4, "s": 10}, {"fan": 6, "root": [283700, 1, 4316300, 2000000, 1, 2], "tree": "y(x(y(x(y(a)(x(a)(a)))(a))(x(y(x(a)(a))(x(a)(a)))(y(x(a)(a))(x(a)(a)))))(y(y(x(a)(a))(x(a)(a)))(x(y(x(a)(a))(x(a)(a)))(y(a)(x(a)(a))))))(x(y(y(x(x(y(a)(x(a)(a)))(a))(x(a)(a)))(x(x(y(x(a)(a))(x(a)(a)))(y(y(a)(a))(y(a)(x(a)(a)))))(y(x(a)(a))(x(a)(a)))))(y(x(x(y(y(x(a)(a))(x(a)(a)))(x(a)(a)))(y(y(x(a)(a))(x(a)(a)))(y(x(a)(a))(x(a)(a)))))(y(x(y(a)(x(a)(a)))(a))(x(y(x(a)(a))(x(a)(a)))(y(a)(x(a)(a))))))(x(x(y(x(a)(a))(x(y(a)(a))(a)))(y(y(x(a)(a))(x(a)(a)))(y(x(a)(a))(x(a)(a)))))(y(x(x(a)(a))(y(x(a)(a))(x(a)(a))))(y(x(y(x(a)(a))(x(a)(a)))(x(a)(a)))(x(y(x(a)(a))(x(a)(a)))(y(x(a)(a))(y(x(a)(a))(x(a)(a))))))))))(y(y(x(x(a)(a))(y(x(a)(a))(x(a)(a))))(x(y(x(a)(a))(x(a)(a)))(y(x(a)(a))(x(a)(a)))))(y(x(y(x(a)(a))(x(a)(a)))(y(y(x(a)(a))(y(x(a)(a))(x(a)(a))))(x(a)(a))))(x(y(x(y(x(a)(a))(x(a)(a)))(x(a)(a)))(x(y(x(a)(a))(x(a)(a)))(x(a)(a))))(x(y(x(a)(a))(x(a)(a)))(y(x(a)(a))(x(a)(a))))))))", "n": 148, "s": 0}, {"fan": 7, "root": [400000, 1, 5000000, 2000000, 1, 2], "tree": "y(x(d)(d))(x(y(d)(y(d)(x(y(d)(a))(a))))(y(d)(y(d)(x(a)(a)))))", "n": 4, "s": 7}, {"fan": 8, "root": [400000, 1, 5000000, 2000000, 1, 2], "tree": "y(x(y(x(y(a)(y(a)(x(a)(a))))(y(a)(a)))(x(y(x(a)(a))(x(a)(a)))(y(x(a)(a))(x(a)(a)))))(y(y(y(x(a)(a))(x(a)(a)))(y(x(a)(a))(x(a)(a))))(x(y(x(a)(a))(x(a)(a)))(y(x(a)(a))(x(a)(a))))))(x(y(y(x(y(x(a)(a))(x(a)(a)))(x(a)(a)))(y(x(x(a)(a))(x(a)(a)))(x(x(y(a)(a))(a))(x(a)(a)))))(y(x(y(y(x(y(x(a)(a))(x(a)(a)))(y(a)(x(a)(a))))(x(y(x(a)(a))(x(a)(a)))(y(x(a)(a))(x(a)(a)))))(x(y(y(x(a)(a))(x(a)(a)))(y(y(x(a)(a))(x(a)(a)))(x(a)(a))))(y(x(a)(a))(x(a)(a)))))(y(x(y(a)(x(a)(a)))(y(a)(x(a)(a))))(x(x(a)(a))(x(a)(a)))))(x(y(x(x(a)(a))(x(a)(a)))(y(x(x(a)(a))(y(x(a)(a))(x(a)(a))))(y(x(x(a)(a))(x(a)(a)))(x(y(x(a)(a))(x(a)(a)))(y(x(a)(a))(x(a)(a)))))))(x(y(x(a)(a))(y(x(a)(a))(y(x(a)(a))(x(a)(a)))))(y(x(a)(a))(y(x(a)(a))(y(x(a)(a))(x(a)(a)))))))))(y(x(x(y(a)(a))(y(a)(y(a)(x(a)(a)))))(y(x(a)(a))(y(x(a)(a))(x(y(x(a)(a))(x(a)(a)))(y(x(a)(a))(y(x(a)(a))(x(a)(a))))))))(y(y(x(y(x(a)(y(a)(a)))(y(x(a)(y(a)(x(a)(a))))(x(x(a)(a))(y(y(x(a)(a))(x(a)(a)))(y(x(a)(a))(x(a)(a)))))))(y(x(y(x(a)(a))(x(a)(a)))(y(x(a)(a))(x(a)(a))))(x(y(y(x(a)(a))(x(a)(a)))(y(x(a)(a))(x(a)(a))))(y(y(x(a)(a))(x(a)(a)))(y(x(a)(a))(x(a)(a)))))))(x(x(x(a)(a))(y(y(y(x(a)(a))(x(a)(a)))(x(a)(a)))(x(a)(a))))(y(y(x(y(x(a)(a))(x(a)(a)))(y(x(a)(a))(x(a)(a))))(x(y(y(x(a)(a))(x(a)(a)))(y(x(a)(a))(x(a)(a))))(x(a)(a))))(y(x(y(y(x(a)(a))(x(a)(a)))(y(x(a)(a))(x(a)(a))))(x(a)(a)))(x(y(x(a)(a))(x(a)(a)))(x(a)(a)))))))(y(x(x(x(a)(a))(x(a)(a)))(y(x(y(x(a)(a))(x(a)(a)))(y(x(a)(a))(x(a)(a))))(y(x(x(a)(a))(x(a)(a)))(x(y(x(a)(a))(x(a)(a)))(y(x(a)(a))(x(a)(a)))))))(y(x(x(x(a)(a))(y(x(a)(a))(y(x(a)(a))(x(a)(a)))))(y(x(y(y(x(a)(a))(y(x(a)(a))(x(a)(a))))(y(x(a)(a))(x(a)(a))))(y(x(a)(a))(x(a)(a))))(x(y(y(x(a)(a))(x(a)(a)))(x(a)(a)))(y(x(a)(a))(x(a)(a))))))(x(x(y(x(a)(a))(y(x(a)(a))(y(x(a)(a))(x(a)(a)))))(y(y(y(x(a)(a))(x(a)(a)))(x(a)(a)))(x(a)(a))))(y(x(y(x(a)(a))(x(a)(a)))(y(x(a)(a))(x(a)(a))))(x(x(a)(a))(x(a)(a))))))))))", "n": 311, "s": 0}, {"fan": 9, "root": [462278, 1, 5862278, 2000000, 1, 2], "tree": "y(x(d)(d))(x(y(d)(x(y(d)(y(d)(a)))(y(d)(a))))(y(d)(x(y(d)(a))(y(d)(x(a)(y(d)(a)))))))", "n": 5, "s": 10}, {"fan": 10, "root": [462278, 1, 5862278, 2000000, 1, 2], "tree": "y(x(y(x(y(a)(x(a)(a)))(y(y(a)(a))(x(a)(a))))(x(x(a)(a))(y(x(a)(a))(x(a)(a)))))(x(y(x(a)(a))(x(a)(y(a)(a))))(y(x(y(a)(a))(y(x(y(a)(a))(y(y(a)(a))(a)))(y(a)(a))))(x(x(a)(a))(y(a)(x(a)(y(a)(a))))))))(x(y(x(y(x(a)(a))(x(y(x(a)(a))(x(a)(a)))(y(x(a)(a))(x(a)(a)))))(y(x(a)(y(a)(a)))(x(y(x(a)(a))(x(a)(a)))(y(x(a)(a))(y(x(a)(a))(x(a)(a)))))))(y(x(y(y(x(y(x(a)(a))(y(x(a)(a))(x(a)(a))))(x(a)(a)))(x(y(x(a)(a))(x(a)(a)))(y(x(a)(a))(x(a)(a)))))(y(x(y(x(a)(a))(x(a)(a)))(x(a)(a)))(x(y(x(a)(a))(x(a)(a)))(x(a)(a)))))(y(y(x(x(a)(a))(y(x(a)(a))(x(a)(a))))(x(y(x(a)(a))(x(a)(a)))(y(x(a)(a))(x(a)(a)))))(x(y(x(a)(a))(x(a)(a)))(y(y(y(x(a)(a))(x(a)(a)))(y(y(x(a)(a))(x(a)(a)))(x(a)(a))))(x(a)(a))))))(y(x(x(y(x(a)(a))(y(x(a)(a))(x(a)(a))))(y(x(a)(a))(x(a)(a))))(x(y(x(a)(a))(x(a)(a)))(y(x(a)(a))(y(x(a)(a))(x(a)(a))))))(x(y(y(x(y(x(a)(a))(x(a)(a)))(y(x(a)(a))(y(x(a)(a))(x(a)(a)))))(x(y(x(a)(a))(x(a)(a)))(y(y(x(a)(a))(x(a)(a)))(y(x(a)(a))(x(a)(a))))))(y(x(y(x(a)(a))(x(a)(a)))(y(x(a)(a))(x(a)(a))))(x(x(a)(y(a)(x(a)(a))))(x(y(y(a)(a))(y(x(a)(a))(x(a)(a))))(x(a)(a))))))(x(y(y(y(x(a)(a))(x(a)(a)))(x(a)(a)))(x(y(a)(a))(a)))(y(y(y(x(a)(a))(x(a)(a)))(x(a)(a)))(x(a)(a))))))))(y(x(y(x(y(a)(a))(y(a)(a)))(x(y(x(a)(a))(y(x(a)(a))(y(x(a)(a))(x(a)(a)))))(y(x(a)(a))(x(a)(a)))))(y(x(x(a)(a))(x(a)(y(a)(a))))(x(y(y(a)(a))(y(x(a)(a))(x(a)(a))))(x(a)(y(a)(a))))))(y(x(y(y(x(y(x(a)(a))(x(a)(a)))(y(x(a)(a))(x(a)(a))))(x(y(x(a)(a))(x(a)(a)))(y(x(a)(a))(x(a)(a)))))(x(y(y(x(a)(a))(x(a)(a)))(y(x(a)(a))(x(a)(a))))(y(x(a)(a))(x(a)(a)))))(x(y(x(a)(a))(x(a)(a)))(x(y(a)(a))(y(a)(x(a)(a))))))(x(y(x(y(x(a)(a))(y(x(a)(a))(x(a)(a))))(y(x(a)(a))(y(x(a)(a))(x(a)(a)))))(x(y(y(x(a)(a))(x(a)(a)))(y(x(a)(a))(y(x(a)(a))(x(x(a)(a))(x(a)(a))))))(y(y(x(a)(a))(x(a)(a)))(x(y(a)(a))(a)))))(y(x(x(y(a)(a))(a))(x(a)(y(a)(a))))(x(y(x(a)(a))(x(a)(a)))(y(x(a)(a))(x(a)(a)))))))))", "n": 305, "s": 0}]