[{"root": [185800, 1, 3014200, 2000000, 1, 2], "tree": "y(x(y(d)(d))(y(d)(d)))(x(y(d)(y(d)(d)))(y(d)(y(d)(y(d)(y(d)(y(d)(y(d)(y(d)(y(d)(y(x(d)(d))(x(d)(a))))))))))))", "n": 1, "s": 18}, {"root": [200000, 1, 3400000, 2000000, 1, 2], "tree": "y(x(y(d)(d))(y(d)(d)))(x(y(d)(y(d)(y(d)(y(d)(x(y(d)(x(y(d)(x(a)(a)))(a)))(y(d)(x(a)(a))))))))(y(d)(y(d)(y(d)(y(d)(x(y(d)(x(a)(a)))(y(d)(x(a)(a)))))))))", "n": 9, "s": 17}, {"root": [200000, 1, 3400000, 2000000, 1, 2], "tree": "y(x(x(x(x(a)(a))(a))(y(x(a)(a))(x(a)(a))))(y(x(x(a)(a))(y(x(a)(a))(x(a)(a))))(x(y(x(a)(a))(x(a)(a)))(y(x(a)(a))(x(a)(a))))))(x(x(x(y(a)(a))(y(a)(a)))(y(x(a)(a))(y(x(a)(a))(y(x(a)(a))(y(x(a)(a))(x(a)(a)))))))(y(y(x(x(a)(a))(y(x(a)(a))(x(a)(a))))(x(x(a)(a))(y(x(a)(a))(y(x(a)(a))(x(a)(a))))))(y(x(y(x(a)(a))(x(a)(a)))(y(x(a)(a))(x(a)(a))))(y(x(x(a)(a))(y(x(a)(a))(x(a)(a))))(x(y(x(a)(a))(y(x(a)(a))(x(a)(a))))(y(x(a)(a))(y(x(a)(a))(x(a)(a)))))))))", "n": 75, "s": 0}, {"root": [216300, 1, 3816300, 2000000, 1, 2], "tree": "y(x(d)(d))(x(y(d)(y(d)(y(d)(y(d)(y(d)(x(x(a)(a))(a)))))))(y(d)(y(d)(y(d)(y(d)(y(d)(x(y(d)(a))(y(d)(y(d)(a))))))))))", "n": 5, "s": 15}, {"root": [216300, 1, 3816300, 2000000, 1, 2], "tree": "y(x(y(x(y(x(a)(a))(x(a)(a)))(y(y(a)(x(a)(a)))(x(a)(a))))(y(x(y(x(a)(a))(x(a)(a)))(x(a)(a)))(x(y(x(a)(a))(x(a)(a)))(x(a)(a)))))(y(y(y(x(a)(a))(x(a)(a)))(x(x(a)(a))(a)))(x(x(a)(a))(y(x(a)(a))(x(a)(a))))))(x(y(y(x(y(x(a)(a))(x(a)(a)))(y(y(x(a)(a))(x(a)(a)))(x(a)(a))))(x(y(x(a)(a))(x(a)(a)))(y(x(a)(a))(x(a)(a)))))(y(y(x(y(x(a)(a))(x(a)(a)))(x(a)(a)))(x(x(a)(a))(y(x(a)(a))(x(a)(a)))))(y(x(x(a)(y(a)(a)))(y(x(a)(a))(x(a)(a))))(x(y(x(a)(a))(y(x(a)(a))(x(a)(a))))(y(x(a)(y(a)(a)))(y(x(a)(a))(x(a)(a))))))))(y(y(x(x(a)(a))(y(x(a)(a))(x(a)(a))))(x(y(x(a)(a))(x(a)(a)))(y(y(y(x(a)(a))(y(x(a)(a))(x(a)(a))))(x(a)(a)))(x(a)(a)))))(y(x(y(x(a)(a))(x(a)(a)))(y(x(a)(a))(x(a)(a))))(x(y(x(y(a)(x(a)(a)))(y(a)(a)))(y(x(y(a)(a))(y(a)(a)))(y(x(a)(a))(x(a)(a)))))(y(x(a)(a))(y(x(a)(a))(x(a)(x(a)(a)))))))))", "n": 132, "s": 0}, {"root": [283700, 1, 4316300, 2000000, 1, 2], "tree": "y(x(d)(d))(x(y(d)(y(d)(y(d)(y(d)(y(d)(y(d)(y(d)(x(y(d)(a))(a)))))))))(y(d)(y(d)(y(d)(y(d)(y(d)(y(d)(y(d)(x(a)(a))))))))))", "n": 4, "s": 17}, {"root": [283700, 1, 4316300, 2000000, 1, 2], "tree": "y(x(y(y(y(y(x(y(a)(a))(a))(x(a)(a)))(x(y(a)(x(a)(a)))(a)))(x(x(a)(a))(x(a)(a))))(y(x(y(x(a)(a))(x(a)(a)))(x(a)(a)))(x(y(x(a)(a))(x(a)(a)))(y(x(a)(a))(x(a)(a))))))(y(y(y(y(y(y(x(a)(a))(x(a)(a)))(x(a)(a)))(y(x(a)(a))(x(a)(a))))(y(x(a)(a))(x(a)(a))))(y(x(y(a)(a))(a))(x(x(a)(a))(y(x(a)(a))(x(a)(a))))))(y(x(x(a)(y(a)(a)))(y(x(x(a)(a))(a))(x(a)(a))))(x(y(x(a)(a))(x(a)(a)))(y(x(a)(a))(x(a)(a)))))))(x(y(x(y(x(y(x(a)(a))(x(a)(a)))(y(a)(x(a)(a))))(x(y(x(a)(a))(x(a)(a)))(y(x(a)(a))(x(a)(a)))))(y(y(x(a)(a))(x(a)(a)))(y(x(x(a)(a))(a))(x(y(x(a)(a))(x(a)(a)))(y(x(a)(a))(x(a)(a)))))))(y(x(x(y(y(x(a)(a))(x(a)(a)))(x(a)(a)))(y(y(x(a)(a))(x(a)(a)))(y(x(a)(a))(x(a)(a)))))(y(x(y(x(a)(a))(x(a)(a)))(y(x(a)(a))(x(a)(a))))(x(y(x(a)(a))(x(a)(a)))(y(x(a)(a))(x(a)(a))))))(x(x(y(x(a)(a))(x(y(a)(y(a)(x(a)(a))))(a)))(y(x(a)(a))(y(x(a)(a))(x(a)(a)))))(y(x(x(a)(a))(y(x(a)(a))(x(a)(a))))(y(x(y(x(a)(a))(x(a)(a)))(x(a)(a)))(x(y(x(a)(a))(x(a)(a)))(y(x(a)(a))(x(a)(a)))))))))(y(y(x(y(x(a)(a))(x(a)(a)))(y(x(a)(a))(x(a)(a))))(x(y(x(a)(a))(x(y(a)(a))(a)))(y(x(a)(a))(x(a)(a)))))(y(x(y(x(y(x(a)(a))(x(a)(a)))(y(a)(x(a)(a))))(x(y(x(a)(a))(x(a)(a)))(y(x(a)(a))(x(a)(a)))))(y(x(a)(a))(x(y(a)(x(a)(a)))(y(a)(a)))))(x(y(x(y(x(a)(a))(x(a)(a)))(y(x(a)(a))(x(a)(a))))(x(x(a)(a))(x(a)(a))))(y(x(y(x(a)(a))(x(a)(a)))(y(x(a)(a))(x(a)(a))))(x(y(x(a)(a))(x(a)(a)))(y(y(x(a)(a))(x(a)(a)))(x(a)(a)))))))))", "n": 228, "s": 0}, {"root": [400000, 1, 5000000, 2000000, 1, 2], "tree": "y(x(d)(d))(x(y(d)(y(d)(y(d)(y(d)(x(y(d)(y(d)(a)))(y(d)(a)))))))(y(d)(y(d)(y(d)(x(y(d)(a))(a))))))", "n": 4, "s": 13}, {"root": [400000, 1, 5000000, 2000000, 1, 2], "tree": "y(x(x(y(y(y(a)(a))(x(y(a)(a))(a)))(x(y(x(a)(a))(a))(a)))(y(y(a)(a))(x(a)(a))))(y(y(x(a)(y(a)(a)))(x(a)(a)))(x(x(y(a)(a))(y(y(a)(x(a)(a)))(x(a)(y(a)(a)))))(y(y(x(a)(a))(x(y(a)(a))(a)))(x(y(x(a)(a))(y(a)(a)))(x(y(a)(a))(a)))))))(x(y(x(y(y(x(a)(a))(x(a)(a)))(x(y(a)(x(a)(a)))(a)))(y(x(a)(a))(x(a)(a))))(y(x(x(y(x(a)(a))(x(a)(a)))(y(x(a)(a))(x(a)(a))))(x(y(x(a)(a))(x(a)(a)))(y(x(a)(a))(x(a)(a)))))(x(y(x(y(x(a)(a))(y(x(a)(a))(x(a)(a))))(x(a)(a)))(y(x(y(x(a)(a))(x(a)(a)))(x(a)(a)))(x(y(x(a)(a))(x(a)(a)))(x(a)(a)))))(y(x(x(a)(a))(x(a)(a)))(y(x(x(a)(a))(x(a)(a)))(y(x(x(a)(a))(x(a)(a)))(y(x(x(a)(a))(x(a)(a)))(x(y(x(a)(a))(x(a)(a)))(y(x(a)(a))(y(x(a)(a))(y(x(a)(a))(x(a)(a)))))))))))))(y(y(x(x(a)(a))(x(y(a)(a))(a)))(x(y(x(a)(a))(x(a)(a)))(y(y(x(a)(a))(x(a)(a)))(x(a)(a)))))(y(x(y(y(x(a)(a))(x(x(a)(a))(y(a)(x(a)(a)))))(x(x(a)(a))(y(y(x(a)(a))(x(a)(a)))(x(a)(a)))))(y(x(y(a)(a))(a))(x(x(a)(a))(x(a)(a)))))(x(y(x(x(a)(a))(y(x(a)(a))(y(x(a)(a))(x(a)(a)))))(y(x(x(a)(a))(y(x(a)(a))(x(a)(a))))(y(x(y(x(a)(a))(x(a)(a)))(y(x(a)(a))(y(x(a)(a))(y(x(a)(a))(x(a)(a))))))(y(x(y(x(a)(a))(x(a)(a)))(y(y(x(a)(a))(x(a)(a)))(y(x(a)(a))(x(a)(a)))))(y(x(y(x(a)(a))(x(a)(a)))(y(x(a)(a))(x(a)(a))))(x(y(x(a)(a))(x(a)(a)))(y(x(a)(a))(x(a)(a)))))))))(y(x(x(a)(a))(x(a)(a)))(x(y(x(a)(a))(y(x(a)(a))(y(y(x(a)(a))(y(x(a)(a))(x(a)(a))))(y(x(a)(a))(x(a)(a))))))(y(x(a)(a))(y(x(a)(a))(y(x(a)(a))(y(x(a)(a))(x(a)(a))))))))))))", "n": 233, "s": 0}, {"root": [462278, 1, 5862278, 2000000, 1, 2], "tree": "y(x(d)(d))(x(y(d)(y(d)(y(d)(x(y(d)(a))(y(d)(x(a)(y(d)(x(a)(a)))))))))(y(d)(x(y(d)(x(y(d)(y(d)(x(y(d)(a))(y(d)(a)))))(y(d)(x(y(d)(a))(a)))))(x(y(d)(x(a)(a)))(y(d)(x(a)(x(a)(y(d)(a)))))))))", "n": 13, "s": 19}, {"root": [462278, 1, 5862278, 2000000, 1, 2], "tree": "y(x(y(y(x(y(x(y(a)(a))(y(a)(a)))(x(a)(a)))(y(x(a)(a))(x(a)(a))))(x(y(x(a)(a))(a))(x(a)(a))))(x(y(x(a)(a))(x(a)(a)))(y(a)(y(a)(x(a)(a))))))(y(x(y(y(x(a)(a))(a))(a))(y(x(x(a)(y(a)(a)))(x(y(a)(a))(x(a)(a))))(x(a)(x(a)(a)))))(x(y(x(a)(a))(x(a)(y(a)(a))))(x(y(a)(a))(y(a)(x(a)(a)))))))(x(y(x(x(y(a)(a))(y(a)(a)))(y(x(y(a)(x(a)(a)))(y(y(a)(a))(y(x(a)(a))(x(a)(a)))))(y(x(x(a)(a))(y(x(a)(a))(x(a)(a))))(x(a)(a)))))(y(x(x(y(x(a)(a))(x(a)(a)))(y(y(a)(x(a)(a)))(y(x(a)(a))(x(a)(a)))))(y(y(x(a)(a))(x(y(a)(x(a)(a)))(a)))(y(x(y(y(x(a)(a))(x(a)(a)))(y(x(a)(a))(x(a)(a))))(y(y(a)(x(a)(a)))(x(a)(a))))(x(y(y(x(a)(a))(x(a)(a)))(x(a)(a)))(x(a)(a))))))(y(x(x(x(a)(a))(y(x(a)(a))(x(y(a)(a))(y(a)(y(a)(x(a)(a)))))))(x(y(y(x(a)(a))(x(a)(a)))(x(y(a)(x(a)(a)))(a)))(x(a)(a))))(x(y(x(x(a)(y(a)(a)))(y(x(x(a)(a))(x(a)(a)))(x(y(x(a)(a))(a))(y(y(x(a)(a))(x(a)(a)))(y(a)(a))))))(y(x(x(a)(a))(y(x(a)(a))(y(x(a)(a))(x(a)(a)))))(y(x(x(a)(a))(y(x(a)(a))(y(x(a)(a))(x(a)(a)))))(y(x(x(a)(a))(y(x(a)(a))(x(a)(a))))(x(y(x(a)(a))(y(x(a)(a))(x(a)(a))))(y(y(x(a)(a))(x(a)(a)))(y(x(a)(a))(y(x(a)(a))(x(a)(a))))))))))(y(x(x(y(x(a)(a))(y(x(a)(a))(x(a)(a))))(y(a)(a)))(x(a)(a)))(y(x(y(x(a)(a))(x(a)(a)))(x(a)(a)))(x(y(y(x(a)(a))(x(a)(a)))(y(x(a)(a))(y(x(a)(a))(x(a)(a)))))(y(x(a)(a))(y(x(a)(a))(x(y(a)(y(a)(x(a)(a))))(y(x(a)(a))(x(a)(a)))))))))))))(y(x(y(x(y(a)(x(y(a)(a))(a)))(a))(x(y(x(y(a)(a))(a))(a))(a)))(x(y(a)(a))(y(x(a)(x(a)(y(x(a)(x(a)(y(a)(a))))(x(a)(y(a)(a))))))(x(a)(y(a)(a))))))(y(x(y(x(a)(a))(x(y(y(a)(y(a)(x(a)(a))))(x(a)(a)))(y(a)(y(y(x(a)(a))(x(a)(a)))(y(y(y(x(a)(a))(x(a)(a)))(x(a)(a)))(y(x(a)(a))(x(a)(a))))))))(y(x(a)(x(a)(a)))(x(y(a)(y(a)(x(a)(a))))(y(a)(x(a)(a))))))(y(x(y(x(x(a)(a))(y(y(x(a)(a))(x(a)(a)))(y(x(a)(a))(x(a)(a)))))(x(x(a)(a))(y(y(x(a)(a))(x(a)(a)))(x(a)(a)))))(x(y(y(x(a)(a))(x(a)(a)))(y(x(a)(a))(x(a)(a))))(y(x(a)(a))(x(a)(a)))))(x(x(y(x(a)(a))(y(x(a)(a))(y(x(a)(a))(y(x(a)(a))(x(y(y(a)(x(a)(a)))(y(x(a)(a))(x(a)(a))))(x(a)(a)))))))(y(y(y(x(a)(a))(x(a)(a)))(x(a)(a)))(x(a)(a))))(y(x(x(a)(a))(y(x(a)(a))(x(a)(a))))(x(y(x(a)(a))(x(a)(a)))(y(y(x(a)(a))(y(x(a)(a))(x(a)(a))))(y(y(x(a)(a))(x(a)(a)))(y(x(a)(a))(x(a)(a))))))))))))", "n": 354, "s": 0}]